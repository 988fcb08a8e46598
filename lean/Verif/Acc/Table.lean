/-
The value accessors of /repo/ie as a table: for every accessor, the payload length checked before anything else, and
what is done for each element type. Generated from the Go sources; every entry cites its function. Types not listed
run into the `default` branch, `return ..., &InvalidTypeError{Type: i.Type}` (or the leading
`if i.Type != X { return ..., &InvalidTypeError{Type: i.Type} }`).
-/
import Verif.Acc.Leaf

namespace Pfcp

/-- The accessors: methods on `*IE` without arguments that return a value and an error. -/
inductive Acc where
  | AccessAvailabilityControlInformation | AccessAvailabilityInformation | AccessAvailabilityReport
  | ActivatePredefinedRules | ActivationTime | AdditionalMonitoringTime | AdditionalUsageReportsInformation
  | AggregatedURRID | AggregatedURRs | AlternativeSMFIPAddress | APNDNN | ApplicationDetectionInformation
  | ApplicationID | ApplicationIDsPFDs | ApplicationInstanceID | ApplyAction | ATSSSControlParameters
  | ATSSSLLControlInformation | ATSSSLLInformation | ATSSSLLParameters | AveragePacketDelay | AveragingWindow
  | BARID | BridgeManagementInformationContainer | CTAG | Cause | ClockDriftControlInformation | ClockDriftReport
  | CPFunctionFeatures | CPPFCPEntityIPAddress | CreateBAR | CreateBridgeInfoForTSC | CreateFAR | CreateMAR
  | CreatePDR | CreateQER | CreateSRR | CreateTrafficEndpoint | CreateURR | CreatedBridgeInfoForTSC | CreatedPDR
  | CreatedTrafficEndpoint | LocalFTEID | CumulativeRateRatioMeasurement | CumulativeRateRatioThreshold
  | DataNetworkAccessIdentifier | DataStatus | DeactivatePredefinedRules | DeactivationTime | DestinationInterface
  | DLBufferingDuration | DLBufferingSuggestedPacketCount | DLDataPacketsSize | DLFlowLevelMarking
  | DownlinkDataNotificationDelay | DownlinkDataReport | DownlinkDataServiceInformation | PPI
  | DroppedDLTrafficThreshold | DSTTPortNumber | DuplicatingParameters | DurationMeasurement | EndTime
  | ErrorIndicationReport | EthernetContextInformation | EthernetFilterID | EthernetFilterProperties
  | EthernetInactivityTimer | EthernetPacketFilter | EthernetPDUSessionInformation | EthernetTrafficInformation
  | Ethertype | EventQuota | EventThreshold | EventTimeStamp | FSEID | FTEID | RuleIDType | FailedRuleID | FARID
  | FlowInformation | FlowDirection | FlowDescription | ForwardingParameters | ForwardingPolicy | FQCSID
  | NodeIDType | NodeAddress | CSIDs | FramedIPv6Route | FramedRoute | FramedRouting | GateStatus | GBR
  | GracefulReleasePeriod | GTPUPathInterfaceType | GTPUPathQoSControlInformation | GTPUPathQoSReport
  | HeaderEnrichment | InactivityDetectionTime | IPMulticastAddress | IPMulticastAddressingInfo | IPVersion
  | JoinIPMulticastInformationWithinUsageReport | LeaveIPMulticastInformationWithinUsageReport | LinkedURRID
  | LoadControlInformation | MACAddressesDetected | MACAddressesRemoved | MACAddress | MARID | MaximumPacketDelay
  | MBR | MeasurementInformation | MeasurementMethod | MeasurementPeriod | Metric | MinimumPacketDelay
  | MinimumWaitTime | MonitoringTime | MPTCPAddressInformation | MPTCPApplicableIndication
  | MPTCPControlInformation | MPTCPParameters | MTEDTControlInformation | Multiplier | ValueDigits | Exponent
  | NetworkInstance | NFInstanceID | NodeID | NodeReportType | NonTGPPAccessForwardingActionInformation
  | NumberOfReports | NumberOfUEIPAddresses | NWTTPortNumber | OCIFlags | OffendingIE | OuterHeaderCreation
  | OuterHeaderRemoval | OverloadControlInformation | PacketDelayThresholds | PacketRateStatusReport
  | PacketRateStatus | PacketRate | PacketReplicationAndDetectionCarryOnInformation | PagingPolicyIndicator | PDI
  | PDNType | PDRID | PFCPAssociationReleaseRequest | PFCPSessionRetentionInformation | PFCPASReqFlags
  | PFCPASRspFlags | PFCPAUReqFlags | PFCPSEReqFlags | PFCPSMReqFlags | PFCPSRReqFlags | PFCPSRRspFlags
  | PFDContents | PFDContext | PMFAddressInformation | PMFControlInformation | PMFParameters
  | PortManagementInformationContainer | Precedence | Priority | ProvideATSSSControlInformation
  | ProvideRDSConfigurationInformation | Proxying | QERControlIndications | QERCorrelationID | QERID | QFI
  | QoSInformationInGTPUPathQoSReport | QoSMonitoringMeasurement | QoSMonitoringPerQoSFlowControlInformation
  | QoSMonitoringReport | QoSReportTrigger | QueryPacketRateStatus | QueryURRReference | QueryURR
  | QuotaHoldingTime | QuotaValidityTime | RDSConfigurationInformation | RecoveryTimeStamp | RedirectInformation
  | RedundantTransmissionForwardingParameters | RedundantTransmissionParameters | RemoteGTPUPeer | RemoveBAR
  | RemoveFAR | RemoveMAR | RemovePDR | RemoveQER | RemoveSRR | RemoveTrafficEndpoint | RemoveURR | ReportType
  | ReportingFrequency | ReportingTriggers | RequestedAccessAvailabilityInformation
  | RequestedClockDriftInformation | RequestedQoSMonitoring | RQI | SNSSAI | STAG | SDFFilter | SequenceNumber
  | SessionReport | SMFSetID | SourceInterface | SourceIPAddress | SRRID | StartTime | SteeringFunctionality
  | SteeringMode | SubsequentEventQuota | SubsequentEventThreshold | SubsequentTimeQuota | SubsequentTimeThreshold
  | SubsequentVolumeQuota | SubsequentVolumeThreshold | SuggestedBufferingPacketsCount
  | TGPPAccessForwardingActionInformation | TGPPInterfaceType | TimeOfFirstPacket | TimeOfLastPacket
  | TimeOffsetMeasurement | TimeOffsetThreshold | TimeQuotaMechanism | TimeQuota | TimeThreshold | Timer
  | TraceInformation | TrafficEndpointID | TransportDelayReporting | TransportLevelMarking
  | TSCManagementInformation | PortManagementInformationForTSC | TSNBridgeID | TSNTimeDomainNumber
  | UEIPAddressPoolIdentity | UEIPAddressPoolInformation | UEIPAddressUsageInformation | UEIPAddress
  | UELinkSpecificIPAddress | UPFunctionFeatures | UpdateTGPPAccessForwardingActionInformation | UpdateBAR
  | UpdateDuplicatingParameters | UpdateFAR | UpdateForwardingParameters | UpdateMAR
  | UpdateNonTGPPAccessForwardingActionInformation | UpdatePDR | UpdateQER | UpdateSRR | UpdateTrafficEndpoint
  | UpdateURR | UpdatedPDR | URSEQN | URRID | UsageInformation | UsageReportTrigger | UsageReport | UserID
  | UserPlaneInactivityTimer | UserPlaneIPResourceInformation | UserPlanePathFailureReport
  | UserPlanePathRecoveryReport | ValidityTimer | VolumeMeasurement | VolumeQuota | VolumeThreshold | Weight
  deriving DecidableEq, Repr

/-- What an accessor does for one element type: return a value computed from the payload, or decode the children of a
grouped element (through the accessor `via`, called on the same element) and call an accessor on the first child whose
type is listed. -/
inductive Body where
  | leaf (l : Leaf)
  | descend (via : Acc) (subs : List (IEType × Acc))

/-- An accessor: `pre` is the payload length required before the type is looked at (0: no check). -/
structure AccDef where
  pre : Nat
  cases : List (IEType × Body)

namespace Acc

/-- `IE.AccessAvailabilityControlInformation`, /repo/ie/access-availability-control-information.go:13-53. -/
def dAccessAvailabilityControlInformation : AccDef := ⟨0, [
  (T.AccessAvailabilityControlInformation, .leaf .ies),
  (T.CreateSRR, .descend .CreateSRR [(T.AccessAvailabilityControlInformation, .AccessAvailabilityControlInformation)]),
  (T.UpdateSRR, .descend .UpdateSRR [(T.AccessAvailabilityControlInformation, .AccessAvailabilityControlInformation)]),
  (T.SessionReport, .descend .SessionReport [(T.AccessAvailabilityControlInformation, .AccessAvailabilityControlInformation)])]⟩

/-- `IE.AccessAvailabilityInformation`, /repo/ie/access-availability-information.go:25-44. -/
def dAccessAvailabilityInformation : AccDef := ⟨0, [
  (T.AccessAvailabilityInformation, .leaf .u8),
  (T.AccessAvailabilityReport, .descend .AccessAvailabilityReport [(T.AccessAvailabilityInformation, .AccessAvailabilityInformation)])]⟩

/-- `IE.AccessAvailabilityReport`, /repo/ie/access-availability-report.go:13-19. -/
def dAccessAvailabilityReport : AccDef := ⟨0, [
  (T.AccessAvailabilityReport, .leaf .ies)]⟩

/-- `IE.ActivatePredefinedRules`, /repo/ie/activate-predefined-rules.go:13-42. -/
def dActivatePredefinedRules : AccDef := ⟨0, [
  (T.ActivatePredefinedRules, .leaf .str),
  (T.CreatePDR, .descend .CreatePDR [(T.ActivatePredefinedRules, .ActivatePredefinedRules)]),
  (T.UpdatePDR, .descend .UpdatePDR [(T.ActivatePredefinedRules, .ActivatePredefinedRules)])]⟩

/-- `IE.ActivationTime`, /repo/ie/activation-time.go:18-47. -/
def dActivationTime : AccDef := ⟨0, [
  (T.ActivationTime, .leaf .timestamp),
  (T.CreatePDR, .descend .CreatePDR [(T.ActivationTime, .ActivationTime)]),
  (T.UpdatePDR, .descend .UpdatePDR [(T.ActivationTime, .ActivationTime)])]⟩

/-- `IE.AdditionalMonitoringTime`, /repo/ie/additional-monitoring-time.go:13-42. -/
def dAdditionalMonitoringTime : AccDef := ⟨0, [
  (T.AdditionalMonitoringTime, .leaf .ies),
  (T.CreateURR, .descend .CreateURR [(T.AdditionalMonitoringTime, .AdditionalMonitoringTime)]),
  (T.UpdateURR, .descend .UpdateURR [(T.AdditionalMonitoringTime, .AdditionalMonitoringTime)])]⟩

/-- `IE.AdditionalUsageReportsInformation`, /repo/ie/additional-usage-reports-information.go:21-31. -/
def dAdditionalUsageReportsInformation : AccDef := ⟨0, [
  (T.AdditionalUsageReportsInformation, .leaf .usageReports)]⟩

/-- `IE.AggregatedURRID`, /repo/ie/aggregated-urr-id.go:13-31. -/
def dAggregatedURRID : AccDef := ⟨0, [
  (T.AggregatedURRID, .leaf .u32),
  (T.AggregatedURRs, .descend .AggregatedURRs [(T.AggregatedURRID, .AggregatedURRID)])]⟩

/-- `IE.AggregatedURRs`, /repo/ie/aggregated-urrs.go:13-42. -/
def dAggregatedURRs : AccDef := ⟨0, [
  (T.AggregatedURRs, .leaf .ies),
  (T.CreateURR, .descend .CreateURR [(T.AggregatedURRs, .AggregatedURRs)]),
  (T.UpdateURR, .descend .UpdateURR [(T.AggregatedURRs, .AggregatedURRs)])]⟩

/-- `IE.AlternativeSMFIPAddress`, /repo/ie/alternative-smf-ip-address.go:25-36. -/
def dAlternativeSMFIPAddress : AccDef := ⟨0, [
  (T.AlternativeSMFIPAddress, .leaf .ip46)]⟩

/-- `IE.APNDNN`, /repo/ie/apn-dnn.go:13-19. -/
def dAPNDNN : AccDef := ⟨0, [
  (T.APNDNN, .leaf .fqdn)]⟩

/-- `IE.ApplicationDetectionInformation`, /repo/ie/application-detection-information.go:13-33. -/
def dApplicationDetectionInformation : AccDef := ⟨0, [
  (T.ApplicationDetectionInformation, .leaf .ies),
  (T.UsageReportWithinSessionModificationResponse, .descend .UsageReport [(T.ApplicationDetectionInformation, .ApplicationDetectionInformation)]),
  (T.UsageReportWithinSessionDeletionResponse, .descend .UsageReport [(T.ApplicationDetectionInformation, .ApplicationDetectionInformation)]),
  (T.UsageReportWithinSessionReportRequest, .descend .UsageReport [(T.ApplicationDetectionInformation, .ApplicationDetectionInformation)])]⟩

/-- `IE.ApplicationID`, /repo/ie/application-id.go:13-75. -/
def dApplicationID : AccDef := ⟨0, [
  (T.ApplicationID, .leaf .str),
  (T.CreatePDR, .descend .CreatePDR [(T.PDI, .ApplicationID)]),
  (T.PDI, .descend .PDI [(T.ApplicationID, .ApplicationID)]),
  (T.ApplicationIDsPFDs, .descend .ApplicationIDsPFDs [(T.ApplicationID, .ApplicationID)]),
  (T.ApplicationDetectionInformation, .descend .ApplicationDetectionInformation [(T.ApplicationID, .ApplicationID)]),
  (T.UsageReportWithinSessionReportRequest, .descend .UsageReport [(T.ApplicationDetectionInformation, .ApplicationID)])]⟩

/-- `IE.ApplicationIDsPFDs`, /repo/ie/application-ids-pfds.go:13-19. -/
def dApplicationIDsPFDs : AccDef := ⟨0, [
  (T.ApplicationIDsPFDs, .leaf .ies)]⟩

/-- `IE.ApplicationInstanceID`, /repo/ie/application-instance-id.go:13-42. -/
def dApplicationInstanceID : AccDef := ⟨0, [
  (T.ApplicationInstanceID, .leaf .str),
  (T.ApplicationDetectionInformation, .descend .ApplicationDetectionInformation [(T.ApplicationInstanceID, .ApplicationInstanceID)]),
  (T.UsageReportWithinSessionReportRequest, .descend .UsageReport [(T.ApplicationDetectionInformation, .ApplicationInstanceID)])]⟩

/-- `IE.ApplyAction`, /repo/ie/apply-action.go:15-47. -/
def dApplyAction : AccDef := ⟨0, [
  (T.ApplyAction, .leaf (.payloadMin 1)),
  (T.CreateFAR, .descend .CreateFAR [(T.ApplyAction, .ApplyAction)]),
  (T.UpdateFAR, .descend .UpdateFAR [(T.ApplyAction, .ApplyAction)])]⟩

/-- `IE.ATSSSControlParameters`, /repo/ie/atsss-control-parameters.go:13-19. -/
def dATSSSControlParameters : AccDef := ⟨0, [
  (T.ATSSSControlParameters, .leaf .ies)]⟩

/-- `IE.ATSSSLLControlInformation`, /repo/ie/atsss-ll-control-information.go:13-31. -/
def dATSSSLLControlInformation : AccDef := ⟨0, [
  (T.ATSSSLLControlInformation, .leaf .u8),
  (T.ProvideATSSSControlInformation, .descend .ProvideATSSSControlInformation [(T.ATSSSLLControlInformation, .ATSSSLLControlInformation)])]⟩

/-- `IE.ATSSSLLInformation`, /repo/ie/atsss-ll-information.go:13-42. -/
def dATSSSLLInformation : AccDef := ⟨0, [
  (T.ATSSSLLInformation, .leaf .u8),
  (T.ATSSSControlParameters, .descend .ATSSSControlParameters [(T.ATSSSLLParameters, .ATSSSLLInformation)]),
  (T.ATSSSLLParameters, .descend .ATSSSLLParameters [(T.ATSSSLLInformation, .ATSSSLLInformation)])]⟩

/-- `IE.ATSSSLLParameters`, /repo/ie/atsss-ll-parameters.go:13-31. -/
def dATSSSLLParameters : AccDef := ⟨0, [
  (T.ATSSSLLParameters, .leaf .ies),
  (T.ATSSSControlParameters, .descend .ATSSSControlParameters [(T.ATSSSLLParameters, .ATSSSLLParameters)])]⟩

/-- `IE.AveragePacketDelay`, /repo/ie/average-packet-delay.go:21-65. -/
def dAveragePacketDelay : AccDef := ⟨4, [
  (T.AveragePacketDelay, .leaf .ms32),
  (T.GTPUPathQoSControlInformation, .descend .GTPUPathQoSControlInformation [(T.AveragePacketDelay, .AveragePacketDelay)]),
  (T.GTPUPathQoSReport, .descend .GTPUPathQoSReport [(T.AveragePacketDelay, .AveragePacketDelay)]),
  (T.QoSInformationInGTPUPathQoSReport, .descend .QoSInformationInGTPUPathQoSReport [(T.AveragePacketDelay, .AveragePacketDelay)])]⟩

/-- `IE.AveragingWindow`, /repo/ie/averaging-window.go:13-42. -/
def dAveragingWindow : AccDef := ⟨0, [
  (T.AveragingWindow, .leaf .u32),
  (T.CreateQER, .descend .CreateQER [(T.AveragingWindow, .AveragingWindow)]),
  (T.UpdateQER, .descend .UpdateQER [(T.AveragingWindow, .AveragingWindow)])]⟩

/-- `IE.BARID`, /repo/ie/bar-id.go:13-76. -/
def dBARID : AccDef := ⟨0, [
  (T.BARID, .leaf .u8),
  (T.CreateFAR, .descend .CreateFAR [(T.BARID, .BARID)]),
  (T.UpdateFAR, .descend .UpdateFAR [(T.BARID, .BARID)]),
  (T.CreateBAR, .descend .CreateBAR [(T.BARID, .BARID)]),
  (T.UpdateBARWithinSessionReportResponse, .descend .UpdateBAR [(T.BARID, .BARID)]),
  (T.UpdateBARWithinSessionModificationRequest, .descend .UpdateBAR [(T.BARID, .BARID)]),
  (T.RemoveBAR, .descend .RemoveBAR [(T.BARID, .BARID)])]⟩

/-- `IE.BridgeManagementInformationContainer`, /repo/ie/bridge-management-information-container.go:13-33. -/
def dBridgeManagementInformationContainer : AccDef := ⟨0, [
  (T.BridgeManagementInformationContainer, .leaf .str),
  (T.TSCManagementInformationWithinSessionModificationRequest, .descend .TSCManagementInformation [(T.BridgeManagementInformationContainer, .BridgeManagementInformationContainer)]),
  (T.TSCManagementInformationWithinSessionModificationResponse, .descend .TSCManagementInformation [(T.BridgeManagementInformationContainer, .BridgeManagementInformationContainer)]),
  (T.TSCManagementInformationWithinSessionReportRequest, .descend .TSCManagementInformation [(T.BridgeManagementInformationContainer, .BridgeManagementInformationContainer)])]⟩

/-- `IE.CTAG`, /repo/ie/c-tag.go:25-82. -/
def dCTAG : AccDef := ⟨0, [
  (T.CTAG, .leaf .tag),
  (T.PDI, .descend .PDI [(T.EthernetPacketFilter, .CTAG)]),
  (T.EthernetPacketFilter, .descend .EthernetPacketFilter [(T.CTAG, .CTAG)]),
  (T.MACAddressesDetected, .leaf .ctagOf),
  (T.MACAddressesRemoved, .leaf .ctagOf),
  (T.EthernetContextInformation, .descend .EthernetContextInformation [(T.MACAddressesDetected, .CTAG)])]⟩

/-- `IE.Cause`, /repo/ie/cause.go:34-39. -/
def dCause : AccDef := ⟨0, [
  (T.Cause, .leaf .u8)]⟩

/-- `IE.ClockDriftControlInformation`, /repo/ie/clock-drift-control-information.go:13-19. -/
def dClockDriftControlInformation : AccDef := ⟨0, [
  (T.ClockDriftControlInformation, .leaf .ies)]⟩

/-- `IE.ClockDriftReport`, /repo/ie/clock-drift-report.go:13-19. -/
def dClockDriftReport : AccDef := ⟨0, [
  (T.ClockDriftReport, .leaf .ies)]⟩

/-- `IE.CPFunctionFeatures`, /repo/ie/cp-function-features.go:15-23. -/
def dCPFunctionFeatures : AccDef := ⟨0, [
  (T.CPFunctionFeatures, .leaf (.payloadMin 1))]⟩

/-- `IE.CPPFCPEntityIPAddress`, /repo/ie/cp-pfcp-entity-ip-address.go:25-48. -/
def dCPPFCPEntityIPAddress : AccDef := ⟨0, [
  (T.CPPFCPEntityIPAddress, .leaf .ip46),
  (T.PFCPSessionRetentionInformation, .descend .PFCPSessionRetentionInformation [(T.CPPFCPEntityIPAddress, .CPPFCPEntityIPAddress)])]⟩

/-- `IE.CreateBAR`, /repo/ie/create-bar.go:13-20. -/
def dCreateBAR : AccDef := ⟨0, [
  (T.CreateBAR, .leaf .ies)]⟩

/-- `IE.CreateBridgeInfoForTSC`, /repo/ie/create-bridge-info-for-tsc.go:13-20. -/
def dCreateBridgeInfoForTSC : AccDef := ⟨0, [
  (T.CreateBridgeInfoForTSC, .leaf .u8)]⟩

/-- `IE.CreateFAR`, /repo/ie/create-far.go:13-19. -/
def dCreateFAR : AccDef := ⟨0, [
  (T.CreateFAR, .leaf .ies)]⟩

/-- `IE.CreateMAR`, /repo/ie/create-mar.go:13-19. -/
def dCreateMAR : AccDef := ⟨0, [
  (T.CreateMAR, .leaf .ies)]⟩

/-- `IE.CreatePDR`, /repo/ie/create-pdr.go:13-19. -/
def dCreatePDR : AccDef := ⟨0, [
  (T.CreatePDR, .leaf .ies)]⟩

/-- `IE.CreateQER`, /repo/ie/create-qer.go:13-19. -/
def dCreateQER : AccDef := ⟨0, [
  (T.CreateQER, .leaf .ies)]⟩

/-- `IE.CreateSRR`, /repo/ie/create-srr.go:13-20. -/
def dCreateSRR : AccDef := ⟨0, [
  (T.CreateSRR, .leaf .ies)]⟩

/-- `IE.CreateTrafficEndpoint`, /repo/ie/create-traffic-endpoint.go:13-19. -/
def dCreateTrafficEndpoint : AccDef := ⟨0, [
  (T.CreateTrafficEndpoint, .leaf .ies)]⟩

/-- `IE.CreateURR`, /repo/ie/create-urr.go:14-20. -/
def dCreateURR : AccDef := ⟨0, [
  (T.CreateURR, .leaf .ies)]⟩

/-- `IE.CreatedBridgeInfoForTSC`, /repo/ie/created-bridge-info-for-tsc.go:13-19. -/
def dCreatedBridgeInfoForTSC : AccDef := ⟨0, [
  (T.CreatedBridgeInfoForTSC, .leaf .ies)]⟩

/-- `IE.CreatedPDR`, /repo/ie/created-pdr.go:13-19. -/
def dCreatedPDR : AccDef := ⟨0, [
  (T.CreatedPDR, .leaf .ies)]⟩

/-- `IE.CreatedTrafficEndpoint`, /repo/ie/created-traffic-endpoint.go:13-19. -/
def dCreatedTrafficEndpoint : AccDef := ⟨0, [
  (T.CreatedTrafficEndpoint, .leaf .ies)]⟩

/-- `IE.LocalFTEID`, /repo/ie/created-traffic-endpoint.go:25-41. -/
def dLocalFTEID : AccDef := ⟨0, [
  (T.CreatedTrafficEndpoint, .descend .CreatedTrafficEndpoint [(T.FTEID, .FTEID)])]⟩

/-- `IE.CumulativeRateRatioMeasurement`, /repo/ie/cumulative-rate-ratio-measurement.go:13-20. -/
def dCumulativeRateRatioMeasurement : AccDef := ⟨0, [
  (T.CumulativeRateRatioMeasurement, .leaf .u32)]⟩

/-- `IE.CumulativeRateRatioThreshold`, /repo/ie/cumulative-rate-ratio-threshold.go:13-44. -/
def dCumulativeRateRatioThreshold : AccDef := ⟨0, [
  (T.CumulativeRateRatioThreshold, .leaf .u32),
  (T.ClockDriftControlInformation, .descend .ClockDriftControlInformation [(T.CumulativeRateRatioThreshold, .CumulativeRateRatioThreshold)]),
  (T.ClockDriftReport, .descend .ClockDriftReport [(T.CumulativeRateRatioThreshold, .CumulativeRateRatioThreshold)])]⟩

/-- `IE.DataNetworkAccessIdentifier`, /repo/ie/data-network-access-identifier.go:13-42. -/
def dDataNetworkAccessIdentifier : AccDef := ⟨0, [
  (T.DataNetworkAccessIdentifier, .leaf .str),
  (T.ForwardingParameters, .descend .ForwardingParameters [(T.DataNetworkAccessIdentifier, .DataNetworkAccessIdentifier)]),
  (T.UpdateForwardingParameters, .descend .UpdateForwardingParameters [(T.DataNetworkAccessIdentifier, .DataNetworkAccessIdentifier)])]⟩

/-- `IE.DataStatus`, /repo/ie/data-status.go:13-31. -/
def dDataStatus : AccDef := ⟨0, [
  (T.DataStatus, .leaf .u8),
  (T.DownlinkDataReport, .descend .DownlinkDataReport [(T.DataStatus, .DataStatus)])]⟩

/-- `IE.DeactivatePredefinedRules`, /repo/ie/deactivate-predefined-rules.go:13-31. -/
def dDeactivatePredefinedRules : AccDef := ⟨0, [
  (T.DeactivatePredefinedRules, .leaf .str),
  (T.UpdatePDR, .descend .UpdatePDR [(T.DeactivatePredefinedRules, .DeactivatePredefinedRules)])]⟩

/-- `IE.DeactivationTime`, /repo/ie/deactivation-time.go:18-47. -/
def dDeactivationTime : AccDef := ⟨0, [
  (T.DeactivationTime, .leaf .timestamp),
  (T.CreatePDR, .descend .CreatePDR [(T.DeactivationTime, .DeactivationTime)]),
  (T.UpdatePDR, .descend .UpdatePDR [(T.DeactivationTime, .DeactivationTime)])]⟩

/-- `IE.DestinationInterface`, /repo/ie/destination-interface.go:23-74. -/
def dDestinationInterface : AccDef := ⟨0, [
  (T.DestinationInterface, .leaf .u8),
  (T.ForwardingParameters, .descend .ForwardingParameters [(T.DestinationInterface, .DestinationInterface)]),
  (T.UpdateForwardingParameters, .descend .UpdateForwardingParameters [(T.DestinationInterface, .DestinationInterface)]),
  (T.DuplicatingParameters, .descend .DuplicatingParameters [(T.DestinationInterface, .DestinationInterface)]),
  (T.UpdateDuplicatingParameters, .descend .UpdateDuplicatingParameters [(T.DestinationInterface, .DestinationInterface)])]⟩

/-- `IE.DLBufferingDuration`, /repo/ie/dl-buffering-duration.go:55-94. -/
def dDLBufferingDuration : AccDef := ⟨1, [
  (T.DLBufferingDuration, .leaf .timer),
  (T.UpdateBARWithinSessionReportResponse, .descend .UpdateBAR [(T.DLBufferingDuration, .DLBufferingDuration)])]⟩

/-- `IE.DLBufferingSuggestedPacketCount`, /repo/ie/dl-buffering-suggested-packet-count.go:21-47. -/
def dDLBufferingSuggestedPacketCount : AccDef := ⟨0, [
  (T.DLBufferingSuggestedPacketCount, .leaf .packetCount),
  (T.UpdateBARWithinSessionReportResponse, .descend .UpdateBAR [(T.DLBufferingSuggestedPacketCount, .DLBufferingSuggestedPacketCount)])]⟩

/-- `IE.DLDataPacketsSize`, /repo/ie/dl-data-packets-size.go:13-31. -/
def dDLDataPacketsSize : AccDef := ⟨0, [
  (T.DLDataPacketsSize, .leaf .u16),
  (T.DownlinkDataReport, .descend .DownlinkDataReport [(T.DLDataPacketsSize, .DLDataPacketsSize)])]⟩

/-- `IE.DLFlowLevelMarking`, /repo/ie/dl-flow-level-marking.go:24-58. -/
def dDLFlowLevelMarking : AccDef := ⟨0, [
  (T.DLFlowLevelMarking, .leaf .dlFlowLevelMarking),
  (T.CreateQER, .descend .CreateQER [(T.DLFlowLevelMarking, .DLFlowLevelMarking)]),
  (T.UpdateQER, .descend .UpdateQER [(T.DLFlowLevelMarking, .DLFlowLevelMarking)])]⟩

/-- `IE.DownlinkDataNotificationDelay`, /repo/ie/downlink-data-notification-delay.go:20-54. -/
def dDownlinkDataNotificationDelay : AccDef := ⟨1, [
  (T.DownlinkDataNotificationDelay, .leaf .delay50),
  (T.CreateBAR, .descend .CreateBAR [(T.DownlinkDataNotificationDelay, .DownlinkDataNotificationDelay)]),
  (T.UpdateBARWithinSessionReportResponse, .descend .UpdateBAR [(T.DownlinkDataNotificationDelay, .DownlinkDataNotificationDelay)]),
  (T.UpdateBARWithinSessionModificationRequest, .descend .UpdateBAR [(T.DownlinkDataNotificationDelay, .DownlinkDataNotificationDelay)])]⟩

/-- `IE.DownlinkDataReport`, /repo/ie/downlink-data-report.go:13-19. -/
def dDownlinkDataReport : AccDef := ⟨0, [
  (T.DownlinkDataReport, .leaf .ies)]⟩

/-- `IE.DownlinkDataServiceInformation`, /repo/ie/downlink-data-service-information.go:27-45. -/
def dDownlinkDataServiceInformation : AccDef := ⟨0, [
  (T.DownlinkDataServiceInformation, .leaf .payload),
  (T.DownlinkDataReport, .descend .DownlinkDataReport [(T.DownlinkDataServiceInformation, .DownlinkDataServiceInformation)])]⟩

/-- `IE.PPI`, /repo/ie/downlink-data-service-information.go:72-81. -/
def dPPI : AccDef := ⟨0, [
  (T.DownlinkDataServiceInformation, .leaf (.byteMin 2 1))]⟩

/-- `IE.DroppedDLTrafficThreshold`, /repo/ie/dropped-dl-traffic-threshold.go:44-73. -/
def dDroppedDLTrafficThreshold : AccDef := ⟨0, [
  (T.DroppedDLTrafficThreshold, .leaf .u8),
  (T.CreateURR, .descend .CreateURR [(T.DroppedDLTrafficThreshold, .DroppedDLTrafficThreshold)]),
  (T.UpdateURR, .descend .UpdateURR [(T.DroppedDLTrafficThreshold, .DroppedDLTrafficThreshold)])]⟩

/-- `IE.DSTTPortNumber`, /repo/ie/ds-tt-port-number.go:13-32. -/
def dDSTTPortNumber : AccDef := ⟨0, [
  (T.DSTTPortNumber, .leaf .u32),
  (T.CreatedBridgeInfoForTSC, .descend .CreatedBridgeInfoForTSC [(T.DSTTPortNumber, .DSTTPortNumber)])]⟩

/-- `IE.DuplicatingParameters`, /repo/ie/duplicating-parameters.go:13-31. -/
def dDuplicatingParameters : AccDef := ⟨0, [
  (T.DuplicatingParameters, .leaf .ies),
  (T.CreateFAR, .descend .CreateFAR [(T.DuplicatingParameters, .DuplicatingParameters)])]⟩

/-- `IE.DurationMeasurement`, /repo/ie/duration-measurement.go:21-45. -/
def dDurationMeasurement : AccDef := ⟨4, [
  (T.DurationMeasurement, .leaf .sec32),
  (T.UsageReportWithinSessionModificationResponse, .descend .UsageReport [(T.DurationMeasurement, .DurationMeasurement)]),
  (T.UsageReportWithinSessionDeletionResponse, .descend .UsageReport [(T.DurationMeasurement, .DurationMeasurement)]),
  (T.UsageReportWithinSessionReportRequest, .descend .UsageReport [(T.DurationMeasurement, .DurationMeasurement)])]⟩

/-- `IE.EndTime`, /repo/ie/end-time.go:18-39. -/
def dEndTime : AccDef := ⟨0, [
  (T.EndTime, .leaf .timestamp),
  (T.UsageReportWithinSessionModificationResponse, .descend .UsageReport [(T.EndTime, .EndTime)]),
  (T.UsageReportWithinSessionDeletionResponse, .descend .UsageReport [(T.EndTime, .EndTime)]),
  (T.UsageReportWithinSessionReportRequest, .descend .UsageReport [(T.EndTime, .EndTime)])]⟩

/-- `IE.ErrorIndicationReport`, /repo/ie/error-indication-report.go:13-19. -/
def dErrorIndicationReport : AccDef := ⟨0, [
  (T.ErrorIndicationReport, .leaf .ies)]⟩

/-- `IE.EthernetContextInformation`, /repo/ie/ethernet-context-information.go:13-19. -/
def dEthernetContextInformation : AccDef := ⟨0, [
  (T.EthernetContextInformation, .leaf .ies)]⟩

/-- `IE.EthernetFilterID`, /repo/ie/ethernet-filter-id.go:13-43. -/
def dEthernetFilterID : AccDef := ⟨0, [
  (T.EthernetFilterID, .leaf .u32),
  (T.PDI, .descend .PDI [(T.EthernetPacketFilter, .EthernetFilterID)]),
  (T.EthernetPacketFilter, .descend .EthernetPacketFilter [(T.EthernetFilterID, .EthernetFilterID)])]⟩

/-- `IE.EthernetFilterProperties`, /repo/ie/ethernet-filter-properties.go:13-42. -/
def dEthernetFilterProperties : AccDef := ⟨0, [
  (T.EthernetFilterProperties, .leaf .u8),
  (T.PDI, .descend .PDI [(T.EthernetFilterProperties, .EthernetFilterProperties)]),
  (T.EthernetPacketFilter, .descend .EthernetPacketFilter [(T.EthernetFilterProperties, .EthernetFilterProperties)])]⟩

/-- `IE.EthernetInactivityTimer`, /repo/ie/ethernet-inactivity-timer.go:21-54. -/
def dEthernetInactivityTimer : AccDef := ⟨4, [
  (T.EthernetInactivityTimer, .leaf .sec32),
  (T.CreateURR, .descend .CreateURR [(T.EthernetInactivityTimer, .EthernetInactivityTimer)]),
  (T.UpdateURR, .descend .UpdateURR [(T.EthernetInactivityTimer, .EthernetInactivityTimer)])]⟩

/-- `IE.EthernetPacketFilter`, /repo/ie/ethernet-packet-filter.go:13-42. -/
def dEthernetPacketFilter : AccDef := ⟨0, [
  (T.EthernetPacketFilter, .leaf .ies),
  (T.CreatePDR, .descend .CreatePDR [(T.PDI, .EthernetPacketFilter)]),
  (T.PDI, .descend .PDI [(T.EthernetPacketFilter, .EthernetPacketFilter)])]⟩

/-- `IE.EthernetPDUSessionInformation`, /repo/ie/ethernet-pdu-session-information.go:13-53. -/
def dEthernetPDUSessionInformation : AccDef := ⟨0, [
  (T.EthernetPDUSessionInformation, .leaf .u8),
  (T.CreatePDR, .descend .CreatePDR [(T.PDI, .EthernetPDUSessionInformation)]),
  (T.PDI, .descend .PDI [(T.EthernetPDUSessionInformation, .EthernetPDUSessionInformation)]),
  (T.CreateTrafficEndpoint, .descend .CreateTrafficEndpoint [(T.EthernetPDUSessionInformation, .EthernetPDUSessionInformation)])]⟩

/-- `IE.EthernetTrafficInformation`, /repo/ie/ethernet-traffic-information.go:13-33. -/
def dEthernetTrafficInformation : AccDef := ⟨0, [
  (T.EthernetTrafficInformation, .leaf .ies),
  (T.UsageReportWithinSessionModificationResponse, .descend .UsageReport [(T.EthernetTrafficInformation, .EthernetTrafficInformation)]),
  (T.UsageReportWithinSessionDeletionResponse, .descend .UsageReport [(T.EthernetTrafficInformation, .EthernetTrafficInformation)]),
  (T.UsageReportWithinSessionReportRequest, .descend .UsageReport [(T.EthernetTrafficInformation, .EthernetTrafficInformation)])]⟩

/-- `IE.Ethertype`, /repo/ie/ethertype.go:13-43. -/
def dEthertype : AccDef := ⟨0, [
  (T.Ethertype, .leaf .u16),
  (T.PDI, .descend .PDI [(T.Ethertype, .Ethertype)]),
  (T.EthernetPacketFilter, .descend .EthernetPacketFilter [(T.Ethertype, .Ethertype)])]⟩

/-- `IE.EventQuota`, /repo/ie/event-quota.go:13-53. -/
def dEventQuota : AccDef := ⟨0, [
  (T.EventQuota, .leaf .u32),
  (T.CreateURR, .descend .CreateURR [(T.EventQuota, .EventQuota)]),
  (T.UpdateURR, .descend .UpdateURR [(T.EventQuota, .EventQuota)]),
  (T.AdditionalMonitoringTime, .descend .AdditionalMonitoringTime [(T.EventQuota, .EventQuota)])]⟩

/-- `IE.EventThreshold`, /repo/ie/event-threshold.go:13-53. -/
def dEventThreshold : AccDef := ⟨0, [
  (T.EventThreshold, .leaf .u32),
  (T.CreateURR, .descend .CreateURR [(T.EventThreshold, .EventThreshold)]),
  (T.UpdateURR, .descend .UpdateURR [(T.EventThreshold, .EventThreshold)]),
  (T.AdditionalMonitoringTime, .descend .AdditionalMonitoringTime [(T.EventThreshold, .EventThreshold)])]⟩

/-- `IE.EventTimeStamp`, /repo/ie/event-time-stamp.go:18-71. -/
def dEventTimeStamp : AccDef := ⟨0, [
  (T.EventTimeStamp, .leaf .timestamp),
  (T.UsageReportWithinSessionReportRequest, .descend .UsageReport [(T.EventTimeStamp, .EventTimeStamp)]),
  (T.GTPUPathQoSReport, .descend .GTPUPathQoSReport [(T.EventTimeStamp, .EventTimeStamp)]),
  (T.QoSMonitoringReport, .descend .QoSMonitoringReport [(T.EventTimeStamp, .EventTimeStamp)]),
  (T.ClockDriftReport, .descend .ClockDriftReport [(T.EventTimeStamp, .EventTimeStamp)])]⟩

/-- `IE.FSEID`, /repo/ie/f-seid.go:26-37. -/
def dFSEID : AccDef := ⟨0, [
  (T.FSEID, .leaf .fseid)]⟩

/-- `IE.FTEID`, /repo/ie/f-teid.go:27-119. -/
def dFTEID : AccDef := ⟨0, [
  (T.FTEID, .leaf .fteid),
  (T.PDI, .descend .PDI [(T.FTEID, .FTEID), (T.RedundantTransmissionParameters, .FTEID)]),
  (T.CreatedPDR, .descend .CreatedPDR [(T.FTEID, .FTEID)]),
  (T.ErrorIndicationReport, .descend .ErrorIndicationReport [(T.FTEID, .FTEID)]),
  (T.CreateTrafficEndpoint, .descend .CreateTrafficEndpoint [(T.FTEID, .FTEID)]),
  (T.CreatedTrafficEndpoint, .leaf .ambiguous),
  (T.UpdateTrafficEndpoint, .descend .UpdateTrafficEndpoint [(T.FTEID, .FTEID)]),
  (T.RedundantTransmissionParameters, .descend .RedundantTransmissionParameters [(T.FTEID, .FTEID)]),
  (T.UpdatedPDR, .descend .UpdatedPDR [(T.FTEID, .FTEID)])]⟩

/-- `IE.RuleIDType`, /repo/ie/failed-rule-id.go:42-48. -/
def dRuleIDType : AccDef := ⟨0, [
  (T.FailedRuleID, .leaf .u8)]⟩

/-- `IE.FailedRuleID`, /repo/ie/failed-rule-id.go:51-78. -/
def dFailedRuleID : AccDef := ⟨0, [
  (T.FailedRuleID, .leaf .failedRule)]⟩

/-- `IE.FARID`, /repo/ie/far-id.go:13-165. -/
def dFARID : AccDef := ⟨0, [
  (T.FARID, .leaf .u32),
  (T.CreatePDR, .descend .CreatePDR [(T.FARID, .FARID)]),
  (T.UpdatePDR, .descend .UpdatePDR [(T.FARID, .FARID)]),
  (T.CreateFAR, .descend .CreateFAR [(T.FARID, .FARID)]),
  (T.UpdateFAR, .descend .UpdateFAR [(T.FARID, .FARID)]),
  (T.CreateURR, .descend .CreateURR [(T.FARID, .FARID)]),
  (T.UpdateURR, .descend .UpdateURR [(T.FARID, .FARID)]),
  (T.RemoveFAR, .descend .RemoveFAR [(T.FARID, .FARID)]),
  (T.CreateMAR, .descend .CreateMAR [(T.TGPPAccessForwardingActionInformation, .FARID), (T.NonTGPPAccessForwardingActionInformation, .FARID)]),
  (T.UpdateMAR, .descend .UpdateMAR [(T.TGPPAccessForwardingActionInformation, .FARID), (T.NonTGPPAccessForwardingActionInformation, .FARID)]),
  (T.TGPPAccessForwardingActionInformation, .descend .TGPPAccessForwardingActionInformation [(T.FARID, .FARID)]),
  (T.NonTGPPAccessForwardingActionInformation, .descend .NonTGPPAccessForwardingActionInformation [(T.FARID, .FARID)]),
  (T.UpdateTGPPAccessForwardingActionInformation, .descend .UpdateTGPPAccessForwardingActionInformation [(T.FARID, .FARID)]),
  (T.UpdateNonTGPPAccessForwardingActionInformation, .descend .UpdateNonTGPPAccessForwardingActionInformation [(T.FARID, .FARID)])]⟩

/-- `IE.FlowInformation`, /repo/ie/flow-information.go:34-63. -/
def dFlowInformation : AccDef := ⟨0, [
  (T.FlowInformation, .leaf .payload),
  (T.ApplicationDetectionInformation, .descend .ApplicationDetectionInformation [(T.FlowInformation, .FlowInformation)]),
  (T.UsageReportWithinSessionReportRequest, .descend .UsageReport [(T.ApplicationDetectionInformation, .FlowInformation)])]⟩

/-- `IE.FlowDirection`, /repo/ie/flow-information.go:66-87. -/
def dFlowDirection : AccDef := ⟨0, [
  (T.FlowInformation, .leaf (.maskMin 0x07)),
  (T.ApplicationDetectionInformation, .descend .ApplicationDetectionInformation [(T.FlowInformation, .FlowDirection)])]⟩

/-- `IE.FlowDescription`, /repo/ie/flow-information.go:90-113. -/
def dFlowDescription : AccDef := ⟨0, [
  (T.FlowInformation, .leaf .flowDescription),
  (T.ApplicationDetectionInformation, .descend .ApplicationDetectionInformation [(T.FlowInformation, .FlowDescription)])]⟩

/-- `IE.ForwardingParameters`, /repo/ie/forwarding-parameters.go:13-31. -/
def dForwardingParameters : AccDef := ⟨0, [
  (T.ForwardingParameters, .leaf .ies),
  (T.CreateFAR, .descend .CreateFAR [(T.ForwardingParameters, .ForwardingParameters)])]⟩

/-- `IE.ForwardingPolicy`, /repo/ie/forwarding-policy.go:21-72. -/
def dForwardingPolicy : AccDef := ⟨0, [
  (T.ForwardingPolicy, .leaf .payload),
  (T.ForwardingParameters, .descend .ForwardingParameters [(T.ForwardingPolicy, .ForwardingPolicy)]),
  (T.UpdateForwardingParameters, .descend .UpdateForwardingParameters [(T.ForwardingPolicy, .ForwardingPolicy)]),
  (T.DuplicatingParameters, .descend .DuplicatingParameters [(T.ForwardingPolicy, .ForwardingPolicy)]),
  (T.UpdateDuplicatingParameters, .descend .UpdateDuplicatingParameters [(T.ForwardingPolicy, .ForwardingPolicy)])]⟩

/-- `IE.FQCSID`, /repo/ie/fq-csid.go:55-64. -/
def dFQCSID : AccDef := ⟨0, [
  (T.FQCSID, .leaf (.payloadMin 3))]⟩

/-- `IE.NodeIDType`, /repo/ie/fq-csid.go:67-78. -/
def dNodeIDType : AccDef := ⟨1, [
  (T.FQCSID, .leaf .nodeIDType)]⟩

/-- `IE.NodeAddress`, /repo/ie/fq-csid.go:81-105. -/
def dNodeAddress : AccDef := ⟨1, [
  (T.FQCSID, .leaf .nodeAddress)]⟩

/-- `IE.CSIDs`, /repo/ie/fq-csid.go:108-134. -/
def dCSIDs : AccDef := ⟨1, [
  (T.FQCSID, .leaf .csids)]⟩

/-- `IE.FramedIPv6Route`, /repo/ie/framed-ipv6-route.go:13-42. -/
def dFramedIPv6Route : AccDef := ⟨0, [
  (T.FramedIPv6Route, .leaf .str),
  (T.CreateTrafficEndpoint, .descend .CreateTrafficEndpoint [(T.FramedIPv6Route, .FramedIPv6Route)]),
  (T.UpdateTrafficEndpoint, .descend .UpdateTrafficEndpoint [(T.FramedIPv6Route, .FramedIPv6Route)])]⟩

/-- `IE.FramedRoute`, /repo/ie/framed-route.go:13-42. -/
def dFramedRoute : AccDef := ⟨0, [
  (T.FramedRoute, .leaf .str),
  (T.CreateTrafficEndpoint, .descend .CreateTrafficEndpoint [(T.FramedRoute, .FramedRoute)]),
  (T.UpdateTrafficEndpoint, .descend .UpdateTrafficEndpoint [(T.FramedRoute, .FramedRoute)])]⟩

/-- `IE.FramedRouting`, /repo/ie/framed-routing.go:23-52. -/
def dFramedRouting : AccDef := ⟨0, [
  (T.FramedRouting, .leaf .u32),
  (T.CreateTrafficEndpoint, .descend .CreateTrafficEndpoint [(T.FramedRouting, .FramedRouting)]),
  (T.UpdateTrafficEndpoint, .descend .UpdateTrafficEndpoint [(T.FramedRouting, .FramedRouting)])]⟩

/-- `IE.GateStatus`, /repo/ie/gate-status.go:19-48. -/
def dGateStatus : AccDef := ⟨0, [
  (T.GateStatus, .leaf .u8),
  (T.CreateQER, .descend .CreateQER [(T.GateStatus, .GateStatus)]),
  (T.UpdateQER, .descend .UpdateQER [(T.GateStatus, .GateStatus)])]⟩

/-- `IE.GBR`, /repo/ie/gbr.go:22-55. -/
def dGBR : AccDef := ⟨10, [
  (T.GBR, .leaf .payload),
  (T.CreateQER, .descend .CreateQER [(T.GBR, .GBR)]),
  (T.UpdateQER, .descend .UpdateQER [(T.GBR, .GBR)])]⟩

/-- `IE.GracefulReleasePeriod`, /repo/ie/graceful-release-period.go:55-82. -/
def dGracefulReleasePeriod : AccDef := ⟨0, [
  (T.GracefulReleasePeriod, .leaf .timerMin)]⟩

/-- `IE.GTPUPathInterfaceType`, /repo/ie/gtp-u-path-interface-type.go:13-43. -/
def dGTPUPathInterfaceType : AccDef := ⟨0, [
  (T.GTPUPathInterfaceType, .leaf .u8),
  (T.GTPUPathQoSControlInformation, .descend .GTPUPathQoSControlInformation [(T.GTPUPathInterfaceType, .GTPUPathInterfaceType)]),
  (T.GTPUPathQoSReport, .descend .GTPUPathQoSReport [(T.GTPUPathInterfaceType, .GTPUPathInterfaceType)])]⟩

/-- `IE.GTPUPathQoSControlInformation`, /repo/ie/gtp-u-path-qos-control-information.go:13-19. -/
def dGTPUPathQoSControlInformation : AccDef := ⟨0, [
  (T.GTPUPathQoSControlInformation, .leaf .ies)]⟩

/-- `IE.GTPUPathQoSReport`, /repo/ie/gtp-u-path-qos-report.go:13-19. -/
def dGTPUPathQoSReport : AccDef := ⟨0, [
  (T.GTPUPathQoSReport, .leaf .ies)]⟩

/-- `IE.HeaderEnrichment`, /repo/ie/header-enrichment.go:28-61. -/
def dHeaderEnrichment : AccDef := ⟨0, [
  (T.HeaderEnrichment, .leaf .headerEnrichment),
  (T.ForwardingParameters, .descend .ForwardingParameters [(T.HeaderEnrichment, .HeaderEnrichment)]),
  (T.UpdateForwardingParameters, .descend .UpdateForwardingParameters [(T.HeaderEnrichment, .HeaderEnrichment)])]⟩

/-- `IE.InactivityDetectionTime`, /repo/ie/inactivity-detection-time.go:13-42. -/
def dInactivityDetectionTime : AccDef := ⟨0, [
  (T.InactivityDetectionTime, .leaf .u32),
  (T.CreateURR, .descend .CreateURR [(T.InactivityDetectionTime, .InactivityDetectionTime)]),
  (T.UpdateURR, .descend .UpdateURR [(T.InactivityDetectionTime, .InactivityDetectionTime)])]⟩

/-- `IE.IPMulticastAddress`, /repo/ie/ip-multicast-address.go:25-92. -/
def dIPMulticastAddress : AccDef := ⟨0, [
  (T.IPMulticastAddress, .leaf .ipMulticastAddress),
  (T.CreatePDR, .descend .CreatePDR [(T.IPMulticastAddressingInfo, .IPMulticastAddress)]),
  (T.UpdatePDR, .descend .UpdatePDR [(T.IPMulticastAddressingInfo, .IPMulticastAddress)]),
  (T.IPMulticastAddressingInfo, .descend .IPMulticastAddressingInfo [(T.IPMulticastAddress, .IPMulticastAddress)]),
  (T.JoinIPMulticastInformationWithinUsageReport, .descend .JoinIPMulticastInformationWithinUsageReport [(T.IPMulticastAddress, .IPMulticastAddress)]),
  (T.LeaveIPMulticastInformationWithinUsageReport, .descend .LeaveIPMulticastInformationWithinUsageReport [(T.IPMulticastAddress, .IPMulticastAddress)])]⟩

/-- `IE.IPMulticastAddressingInfo`, /repo/ie/ip-multicast-addressing-info.go:13-42. -/
def dIPMulticastAddressingInfo : AccDef := ⟨0, [
  (T.IPMulticastAddressingInfo, .leaf .ies),
  (T.CreatePDR, .descend .CreatePDR [(T.IPMulticastAddressingInfo, .IPMulticastAddressingInfo)]),
  (T.UpdatePDR, .descend .UpdatePDR [(T.IPMulticastAddressingInfo, .IPMulticastAddressingInfo)])]⟩

/-- `IE.IPVersion`, /repo/ie/ip-version.go:20-38. -/
def dIPVersion : AccDef := ⟨0, [
  (T.IPVersion, .leaf .u8),
  (T.UEIPAddressPoolInformation, .descend .UEIPAddressPoolInformation [(T.IPVersion, .IPVersion)])]⟩

/-- `IE.JoinIPMulticastInformationWithinUsageReport`, /repo/ie/join-ip-multicast-information.go:13-31. -/
def dJoinIPMulticastInformationWithinUsageReport : AccDef := ⟨0, [
  (T.JoinIPMulticastInformationWithinUsageReport, .leaf .ies),
  (T.UsageReportWithinSessionReportRequest, .descend .UsageReport [(T.JoinIPMulticastInformationWithinUsageReport, .JoinIPMulticastInformationWithinUsageReport)])]⟩

/-- `IE.LeaveIPMulticastInformationWithinUsageReport`, /repo/ie/leave-ip-multicast-information.go:13-31. -/
def dLeaveIPMulticastInformationWithinUsageReport : AccDef := ⟨0, [
  (T.LeaveIPMulticastInformationWithinUsageReport, .leaf .ies),
  (T.UsageReportWithinSessionReportRequest, .descend .UsageReport [(T.LeaveIPMulticastInformationWithinUsageReport, .LeaveIPMulticastInformationWithinUsageReport)])]⟩

/-- `IE.LinkedURRID`, /repo/ie/linked-urr-id.go:13-42. -/
def dLinkedURRID : AccDef := ⟨0, [
  (T.LinkedURRID, .leaf .u32),
  (T.CreateURR, .descend .CreateURR [(T.LinkedURRID, .LinkedURRID)]),
  (T.UpdateURR, .descend .UpdateURR [(T.LinkedURRID, .LinkedURRID)])]⟩

/-- `IE.LoadControlInformation`, /repo/ie/load-control-information.go:13-19. -/
def dLoadControlInformation : AccDef := ⟨0, [
  (T.LoadControlInformation, .leaf .ies)]⟩

/-- `IE.MACAddressesDetected`, /repo/ie/mac-address-detected.go:25-72. -/
def dMACAddressesDetected : AccDef := ⟨0, [
  (T.MACAddressesDetected, .leaf .macAddresses),
  (T.EthernetTrafficInformation, .descend .EthernetTrafficInformation [(T.MACAddressesDetected, .MACAddressesDetected)]),
  (T.EthernetContextInformation, .descend .EthernetContextInformation [(T.MACAddressesDetected, .MACAddressesDetected)]),
  (T.UsageReportWithinSessionModificationResponse, .descend .UsageReport [(T.EthernetTrafficInformation, .MACAddressesDetected)]),
  (T.UsageReportWithinSessionDeletionResponse, .descend .UsageReport [(T.EthernetTrafficInformation, .MACAddressesDetected)]),
  (T.UsageReportWithinSessionReportRequest, .descend .UsageReport [(T.EthernetTrafficInformation, .MACAddressesDetected)])]⟩

/-- `IE.MACAddressesRemoved`, /repo/ie/mac-address-removed.go:25-61. -/
def dMACAddressesRemoved : AccDef := ⟨0, [
  (T.MACAddressesRemoved, .leaf .macAddresses),
  (T.EthernetTrafficInformation, .descend .EthernetTrafficInformation [(T.MACAddressesRemoved, .MACAddressesRemoved)]),
  (T.UsageReportWithinSessionModificationResponse, .descend .UsageReport [(T.EthernetTrafficInformation, .MACAddressesRemoved)]),
  (T.UsageReportWithinSessionDeletionResponse, .descend .UsageReport [(T.EthernetTrafficInformation, .MACAddressesRemoved)]),
  (T.UsageReportWithinSessionReportRequest, .descend .UsageReport [(T.EthernetTrafficInformation, .MACAddressesRemoved)])]⟩

/-- `IE.MACAddress`, /repo/ie/mac-address.go:25-59. -/
def dMACAddress : AccDef := ⟨0, [
  (T.MACAddress, .leaf .macAddress),
  (T.PDI, .descend .PDI [(T.EthernetPacketFilter, .MACAddress)]),
  (T.EthernetPacketFilter, .descend .EthernetPacketFilter [(T.MACAddress, .MACAddress)])]⟩

/-- `IE.MARID`, /repo/ie/mar-id.go:13-64. -/
def dMARID : AccDef := ⟨0, [
  (T.MARID, .leaf .u16),
  (T.CreatePDR, .descend .CreatePDR [(T.MARID, .MARID)]),
  (T.CreateMAR, .descend .CreateMAR [(T.MARID, .MARID)]),
  (T.RemoveMAR, .descend .RemoveMAR [(T.MARID, .MARID)]),
  (T.UpdateMAR, .descend .UpdateMAR [(T.MARID, .MARID)])]⟩

/-- `IE.MaximumPacketDelay`, /repo/ie/maximum-packet-delay.go:21-65. -/
def dMaximumPacketDelay : AccDef := ⟨4, [
  (T.MaximumPacketDelay, .leaf .ms32),
  (T.GTPUPathQoSControlInformation, .descend .GTPUPathQoSControlInformation [(T.MaximumPacketDelay, .MaximumPacketDelay)]),
  (T.GTPUPathQoSReport, .descend .GTPUPathQoSReport [(T.MaximumPacketDelay, .MaximumPacketDelay)]),
  (T.QoSInformationInGTPUPathQoSReport, .descend .QoSInformationInGTPUPathQoSReport [(T.MaximumPacketDelay, .MaximumPacketDelay)])]⟩

/-- `IE.MBR`, /repo/ie/mbr.go:22-55. -/
def dMBR : AccDef := ⟨10, [
  (T.MBR, .leaf .payload),
  (T.CreateQER, .descend .CreateQER [(T.MBR, .MBR)]),
  (T.UpdateQER, .descend .UpdateQER [(T.MBR, .MBR)])]⟩

/-- `IE.MeasurementInformation`, /repo/ie/measurement-information.go:13-42. -/
def dMeasurementInformation : AccDef := ⟨0, [
  (T.MeasurementInformation, .leaf .u8),
  (T.CreateURR, .descend .CreateURR [(T.MeasurementInformation, .MeasurementInformation)]),
  (T.UpdateURR, .descend .UpdateURR [(T.MeasurementInformation, .MeasurementInformation)])]⟩

/-- `IE.MeasurementMethod`, /repo/ie/measurement-method.go:13-53. -/
def dMeasurementMethod : AccDef := ⟨0, [
  (T.MeasurementMethod, .leaf .u8),
  (T.CreateURR, .descend .CreateURR [(T.MeasurementMethod, .MeasurementMethod)]),
  (T.UpdateURR, .descend .UpdateURR [(T.MeasurementMethod, .MeasurementMethod)]),
  (T.GTPUPathQoSControlInformation, .descend .GTPUPathQoSControlInformation [(T.MeasurementMethod, .MeasurementMethod)])]⟩

/-- `IE.MeasurementPeriod`, /repo/ie/measurement-period.go:21-65. -/
def dMeasurementPeriod : AccDef := ⟨4, [
  (T.MeasurementPeriod, .leaf .sec32),
  (T.CreateURR, .descend .CreateURR [(T.MeasurementPeriod, .MeasurementPeriod)]),
  (T.UpdateURR, .descend .UpdateURR [(T.MeasurementPeriod, .MeasurementPeriod)]),
  (T.QoSMonitoringPerQoSFlowControlInformation, .descend .QoSMonitoringPerQoSFlowControlInformation [(T.MeasurementPeriod, .MeasurementPeriod)])]⟩

/-- `IE.Metric`, /repo/ie/metric.go:13-42. -/
def dMetric : AccDef := ⟨0, [
  (T.Metric, .leaf .u8),
  (T.LoadControlInformation, .descend .LoadControlInformation [(T.Metric, .Metric)]),
  (T.OverloadControlInformation, .descend .OverloadControlInformation [(T.Metric, .Metric)])]⟩

/-- `IE.MinimumPacketDelay`, /repo/ie/minimum-packet-delay.go:21-65. -/
def dMinimumPacketDelay : AccDef := ⟨4, [
  (T.MinimumPacketDelay, .leaf .ms32),
  (T.GTPUPathQoSControlInformation, .descend .GTPUPathQoSControlInformation [(T.MinimumPacketDelay, .MinimumPacketDelay)]),
  (T.GTPUPathQoSReport, .descend .GTPUPathQoSReport [(T.MinimumPacketDelay, .MinimumPacketDelay)]),
  (T.QoSInformationInGTPUPathQoSReport, .descend .QoSInformationInGTPUPathQoSReport [(T.MinimumPacketDelay, .MinimumPacketDelay)])]⟩

/-- `IE.MinimumWaitTime`, /repo/ie/minimum-wait-time.go:21-43. -/
def dMinimumWaitTime : AccDef := ⟨4, [
  (T.MinimumWaitTime, .leaf .sec32),
  (T.QoSMonitoringPerQoSFlowControlInformation, .descend .QoSMonitoringPerQoSFlowControlInformation [(T.MinimumWaitTime, .MinimumWaitTime)])]⟩

/-- `IE.MonitoringTime`, /repo/ie/monitoring-time.go:18-58. -/
def dMonitoringTime : AccDef := ⟨0, [
  (T.MonitoringTime, .leaf .timestamp),
  (T.CreateURR, .descend .CreateURR [(T.MonitoringTime, .MonitoringTime)]),
  (T.UpdateURR, .descend .UpdateURR [(T.MonitoringTime, .MonitoringTime)]),
  (T.AdditionalMonitoringTime, .descend .AdditionalMonitoringTime [(T.MonitoringTime, .MonitoringTime)])]⟩

/-- `IE.MPTCPAddressInformation`, /repo/ie/mptcp-address-information.go:31-65. -/
def dMPTCPAddressInformation : AccDef := ⟨0, [
  (T.MPTCPAddressInformation, .leaf .mptcpAddressInformation),
  (T.ATSSSControlParameters, .descend .ATSSSControlParameters [(T.MPTCPParameters, .MPTCPAddressInformation)]),
  (T.MPTCPParameters, .descend .MPTCPParameters [(T.MPTCPAddressInformation, .MPTCPAddressInformation)])]⟩

/-- `IE.MPTCPApplicableIndication`, /repo/ie/mptcp-applicable-indication.go:13-31. -/
def dMPTCPApplicableIndication : AccDef := ⟨0, [
  (T.MPTCPApplicableIndication, .leaf .u8),
  (T.CreatePDR, .descend .CreatePDR [(T.MPTCPApplicableIndication, .MPTCPApplicableIndication)])]⟩

/-- `IE.MPTCPControlInformation`, /repo/ie/mptcp-control-information.go:13-31. -/
def dMPTCPControlInformation : AccDef := ⟨0, [
  (T.MPTCPControlInformation, .leaf .u8),
  (T.ProvideATSSSControlInformation, .descend .ProvideATSSSControlInformation [(T.MPTCPControlInformation, .MPTCPControlInformation)])]⟩

/-- `IE.MPTCPParameters`, /repo/ie/mptcp-parameters.go:13-19. -/
def dMPTCPParameters : AccDef := ⟨0, [
  (T.MPTCPParameters, .leaf .ies)]⟩

/-- `IE.MTEDTControlInformation`, /repo/ie/mt-edt-control-information.go:13-31. -/
def dMTEDTControlInformation : AccDef := ⟨0, [
  (T.MTEDTControlInformation, .leaf .u8),
  (T.CreateBAR, .descend .CreateBAR [(T.MTEDTControlInformation, .MTEDTControlInformation)])]⟩

/-- `IE.Multiplier`, /repo/ie/multiplier.go:22-40. -/
def dMultiplier : AccDef := ⟨0, [
  (T.Multiplier, .leaf .payload),
  (T.AggregatedURRs, .descend .AggregatedURRs [(T.Multiplier, .Multiplier)])]⟩

/-- `IE.ValueDigits`, /repo/ie/multiplier.go:43-61. -/
def dValueDigits : AccDef := ⟨0, [
  (T.Multiplier, .leaf .u64),
  (T.AggregatedURRs, .descend .AggregatedURRs [(T.Multiplier, .ValueDigits)])]⟩

/-- `IE.Exponent`, /repo/ie/multiplier.go:64-86. -/
def dExponent : AccDef := ⟨12, [
  (T.Multiplier, .leaf .exponent),
  (T.AggregatedURRs, .descend .AggregatedURRs [(T.Multiplier, .Exponent)])]⟩

/-- `IE.NetworkInstance`, /repo/ie/network-instance.go:21-106. -/
def dNetworkInstance : AccDef := ⟨0, [
  (T.NetworkInstance, .leaf .str),
  (T.PDI, .descend .PDI []),
  (T.ForwardingParameters, .descend .ForwardingParameters [(T.NetworkInstance, .NetworkInstance)]),
  (T.UpdateForwardingParameters, .descend .UpdateForwardingParameters [(T.NetworkInstance, .NetworkInstance)]),
  (T.CreateTrafficEndpoint, .descend .CreateTrafficEndpoint [(T.NetworkInstance, .NetworkInstance)]),
  (T.UpdateTrafficEndpoint, .descend .UpdateTrafficEndpoint [(T.NetworkInstance, .NetworkInstance)]),
  (T.RedundantTransmissionParameters, .descend .RedundantTransmissionParameters [(T.NetworkInstance, .NetworkInstance)]),
  (T.UEIPAddressPoolInformation, .descend .UEIPAddressPoolInformation [(T.NetworkInstance, .NetworkInstance)])]⟩

/-- `IE.NFInstanceID`, /repo/ie/nf-instance-id.go:17-39. -/
def dNFInstanceID : AccDef := ⟨16, [
  (T.NFInstanceID, .leaf (.prefix 16)),
  (T.EthernetPacketFilter, .descend .EthernetPacketFilter [(T.NFInstanceID, .NFInstanceID)])]⟩

/-- `IE.NodeID`, /repo/ie/node-id.go:77-113. -/
def dNodeID : AccDef := ⟨0, [
  (T.NodeID, .leaf .nodeID)]⟩

/-- `IE.NodeReportType`, /repo/ie/node-report-type.go:13-19. -/
def dNodeReportType : AccDef := ⟨0, [
  (T.NodeReportType, .leaf .u8)]⟩

/-- `IE.NonTGPPAccessForwardingActionInformation`, /repo/ie/non-3gpp-access-forwarding-action-information.go:13-42. -/
def dNonTGPPAccessForwardingActionInformation : AccDef := ⟨0, [
  (T.NonTGPPAccessForwardingActionInformation, .leaf .ies),
  (T.CreateMAR, .descend .CreateMAR [(T.NonTGPPAccessForwardingActionInformation, .NonTGPPAccessForwardingActionInformation)]),
  (T.UpdateMAR, .descend .UpdateMAR [(T.NonTGPPAccessForwardingActionInformation, .NonTGPPAccessForwardingActionInformation)])]⟩

/-- `IE.NumberOfReports`, /repo/ie/number-of-reports.go:13-42. -/
def dNumberOfReports : AccDef := ⟨0, [
  (T.NumberOfReports, .leaf .u16),
  (T.CreateURR, .descend .CreateURR [(T.NumberOfReports, .NumberOfReports)]),
  (T.UpdateURR, .descend .UpdateURR [(T.NumberOfReports, .NumberOfReports)])]⟩

/-- `IE.NumberOfUEIPAddresses`, /repo/ie/number-of-ue-ip-addresses.go:25-48. -/
def dNumberOfUEIPAddresses : AccDef := ⟨0, [
  (T.NumberOfUEIPAddresses, .leaf .numberOfUEIPAddresses),
  (T.UEIPAddressUsageInformation, .descend .UEIPAddressUsageInformation [(T.NumberOfUEIPAddresses, .NumberOfUEIPAddresses)])]⟩

/-- `IE.NWTTPortNumber`, /repo/ie/nw-tt-port-number.go:13-32. -/
def dNWTTPortNumber : AccDef := ⟨0, [
  (T.NWTTPortNumber, .leaf .u32),
  (T.CreatedBridgeInfoForTSC, .descend .CreatedBridgeInfoForTSC [(T.NWTTPortNumber, .NWTTPortNumber)])]⟩

/-- `IE.OCIFlags`, /repo/ie/oci-flags.go:13-31. -/
def dOCIFlags : AccDef := ⟨0, [
  (T.OCIFlags, .leaf .u8),
  (T.OverloadControlInformation, .descend .OverloadControlInformation [(T.OCIFlags, .OCIFlags)])]⟩

/-- `IE.OffendingIE`, /repo/ie/offending-ie.go:13-23. -/
def dOffendingIE : AccDef := ⟨0, [
  (T.OffendingIE, .leaf .u16)]⟩

/-- `IE.OuterHeaderCreation`, /repo/ie/outer-header-creation.go:25-91. -/
def dOuterHeaderCreation : AccDef := ⟨0, [
  (T.OuterHeaderCreation, .leaf .outerHeaderCreation),
  (T.ForwardingParameters, .descend .ForwardingParameters [(T.OuterHeaderCreation, .OuterHeaderCreation)]),
  (T.UpdateForwardingParameters, .descend .UpdateForwardingParameters [(T.OuterHeaderCreation, .OuterHeaderCreation)]),
  (T.DuplicatingParameters, .descend .DuplicatingParameters [(T.OuterHeaderCreation, .OuterHeaderCreation)]),
  (T.UpdateDuplicatingParameters, .descend .UpdateDuplicatingParameters [(T.OuterHeaderCreation, .OuterHeaderCreation)]),
  (T.RedundantTransmissionParameters, .descend .RedundantTransmissionParameters [(T.OuterHeaderCreation, .OuterHeaderCreation)])]⟩

/-- `IE.OuterHeaderRemoval`, /repo/ie/outer-header-removal.go:15-51. -/
def dOuterHeaderRemoval : AccDef := ⟨1, [
  (T.OuterHeaderRemoval, .leaf .payload),
  (T.CreatePDR, .descend .CreatePDR [(T.OuterHeaderRemoval, .OuterHeaderRemoval)]),
  (T.UpdatePDR, .descend .UpdatePDR [(T.OuterHeaderRemoval, .OuterHeaderRemoval)])]⟩

/-- `IE.OverloadControlInformation`, /repo/ie/overload-control-information.go:13-19. -/
def dOverloadControlInformation : AccDef := ⟨0, [
  (T.OverloadControlInformation, .leaf .ies)]⟩

/-- `IE.PacketDelayThresholds`, /repo/ie/packet-delay-thresholds.go:25-48. -/
def dPacketDelayThresholds : AccDef := ⟨0, [
  (T.PacketDelayThresholds, .leaf .delays),
  (T.QoSMonitoringPerQoSFlowControlInformation, .descend .QoSMonitoringPerQoSFlowControlInformation [(T.PacketDelayThresholds, .PacketDelayThresholds)])]⟩

/-- `IE.PacketRateStatusReport`, /repo/ie/packet-rate-status-report.go:18-25. -/
def dPacketRateStatusReport : AccDef := ⟨0, [
  (T.PacketRateStatusReport, .leaf .ies),
  (T.PacketRateStatusReportWithinSessionModificationResponse, .leaf .ies)]⟩

/-- `IE.PacketRateStatus`, /repo/ie/packet-rate-status.go:26-71. -/
def dPacketRateStatus : AccDef := ⟨0, [
  (T.PacketRateStatus, .leaf .packetRateStatus),
  (T.CreateQER, .descend .CreateQER [(T.PacketRateStatus, .PacketRateStatus)]),
  (T.UpdateQER, .descend .UpdateQER [(T.PacketRateStatus, .PacketRateStatus)]),
  (T.PacketRateStatusReport, .descend .PacketRateStatusReport [(T.PacketRateStatus, .PacketRateStatus)])]⟩

/-- `IE.PacketRate`, /repo/ie/packet-rate.go:33-67. -/
def dPacketRate : AccDef := ⟨0, [
  (T.PacketRate, .leaf .packetRate),
  (T.CreateQER, .descend .CreateQER [(T.PacketRate, .PacketRate)]),
  (T.UpdateQER, .descend .UpdateQER [(T.PacketRate, .PacketRate)])]⟩

/-- `IE.PacketReplicationAndDetectionCarryOnInformation`, /repo/ie/packet-replication-and-detection-carry-on-information.go:13-31. -/
def dPacketReplicationAndDetectionCarryOnInformation : AccDef := ⟨0, [
  (T.PacketReplicationAndDetectionCarryOnInformation, .leaf .u8),
  (T.CreatePDR, .descend .CreatePDR [(T.PacketReplicationAndDetectionCarryOnInformation, .PacketReplicationAndDetectionCarryOnInformation)])]⟩

/-- `IE.PagingPolicyIndicator`, /repo/ie/paging-policy-indicator.go:15-48. -/
def dPagingPolicyIndicator : AccDef := ⟨1, [
  (T.PagingPolicyIndicator, .leaf (.mask 0x07)),
  (T.CreateQER, .descend .CreateQER [(T.PagingPolicyIndicator, .PagingPolicyIndicator)]),
  (T.UpdateQER, .descend .UpdateQER [(T.PagingPolicyIndicator, .PagingPolicyIndicator)])]⟩

/-- `IE.PDI`, /repo/ie/pdi.go:13-42. -/
def dPDI : AccDef := ⟨0, [
  (T.PDI, .leaf .ies),
  (T.CreatePDR, .descend .CreatePDR [(T.PDI, .PDI)]),
  (T.UpdatePDR, .descend .UpdatePDR [(T.PDI, .PDI)])]⟩

/-- `IE.PDNType`, /repo/ie/pdn-type.go:23-29. -/
def dPDNType : AccDef := ⟨0, [
  (T.PDNType, .leaf .u8)]⟩

/-- `IE.PDRID`, /repo/ie/pdr-id.go:13-108. -/
def dPDRID : AccDef := ⟨0, [
  (T.PDRID, .leaf .u16),
  (T.CreatePDR, .descend .CreatePDR [(T.PDRID, .PDRID)]),
  (T.UpdatePDR, .descend .UpdatePDR [(T.PDRID, .PDRID)]),
  (T.RemovePDR, .descend .RemovePDR [(T.PDRID, .PDRID)]),
  (T.CreatedPDR, .descend .CreatedPDR [(T.PDRID, .PDRID)]),
  (T.ApplicationDetectionInformation, .descend .ApplicationDetectionInformation [(T.PDRID, .PDRID)]),
  (T.UsageReportWithinSessionReportRequest, .descend .UsageReport [(T.ApplicationDetectionInformation, .PDRID)]),
  (T.DownlinkDataReport, .descend .DownlinkDataReport [(T.PDRID, .PDRID)]),
  (T.UpdatedPDR, .descend .UpdatedPDR [(T.PDRID, .PDRID)])]⟩

/-- `IE.PFCPAssociationReleaseRequest`, /repo/ie/pfcp-association-release-request.go:13-19. -/
def dPFCPAssociationReleaseRequest : AccDef := ⟨0, [
  (T.PFCPAssociationReleaseRequest, .leaf .u8)]⟩

/-- `IE.PFCPSessionRetentionInformation`, /repo/ie/pfcp-session-retention-information.go:13-19. -/
def dPFCPSessionRetentionInformation : AccDef := ⟨0, [
  (T.PFCPSessionRetentionInformation, .leaf .ies)]⟩

/-- `IE.PFCPASReqFlags`, /repo/ie/pfcpasreq-flags.go:13-19. -/
def dPFCPASReqFlags : AccDef := ⟨0, [
  (T.PFCPASReqFlags, .leaf .u8)]⟩

/-- `IE.PFCPASRspFlags`, /repo/ie/pfcpasrsp-flags.go:13-19. -/
def dPFCPASRspFlags : AccDef := ⟨0, [
  (T.PFCPASRspFlags, .leaf .u8)]⟩

/-- `IE.PFCPAUReqFlags`, /repo/ie/pfcpaureq-flags.go:13-19. -/
def dPFCPAUReqFlags : AccDef := ⟨0, [
  (T.PFCPAUReqFlags, .leaf .u8)]⟩

/-- `IE.PFCPSEReqFlags`, /repo/ie/pfcpsereq-flags.go:13-19. -/
def dPFCPSEReqFlags : AccDef := ⟨0, [
  (T.PFCPSEReqFlags, .leaf .u8)]⟩

/-- `IE.PFCPSMReqFlags`, /repo/ie/pfcpsmreq-flags.go:13-42. -/
def dPFCPSMReqFlags : AccDef := ⟨0, [
  (T.PFCPSMReqFlags, .leaf .u8),
  (T.ForwardingParameters, .descend .ForwardingParameters [(T.PFCPSMReqFlags, .PFCPSMReqFlags)]),
  (T.UpdateForwardingParameters, .descend .UpdateForwardingParameters [(T.PFCPSMReqFlags, .PFCPSMReqFlags)])]⟩

/-- `IE.PFCPSRReqFlags`, /repo/ie/pfcpsrreq-flags.go:13-19. -/
def dPFCPSRReqFlags : AccDef := ⟨0, [
  (T.PFCPSRReqFlags, .leaf .u8)]⟩

/-- `IE.PFCPSRRspFlags`, /repo/ie/pfcpsrrsp-flags.go:13-19. -/
def dPFCPSRRspFlags : AccDef := ⟨0, [
  (T.PFCPSRRspFlags, .leaf .u8)]⟩

/-- `IE.PFDContents`, /repo/ie/pfd-contents.go:26-59. -/
def dPFDContents : AccDef := ⟨0, [
  (T.PFDContents, .leaf .pfdContents),
  (T.PFDContext, .descend .PFDContext [(T.PFDContents, .PFDContents)]),
  (T.ApplicationIDsPFDs, .descend .ApplicationIDsPFDs [(T.PFDContext, .PFDContents)])]⟩

/-- `IE.PFDContext`, /repo/ie/pfd-context.go:13-31. -/
def dPFDContext : AccDef := ⟨0, [
  (T.PFDContext, .leaf .ies),
  (T.ApplicationIDsPFDs, .descend .ApplicationIDsPFDs [(T.PFDContext, .PFDContext)])]⟩

/-- `IE.PMFAddressInformation`, /repo/ie/pmf-address-information.go:26-60. -/
def dPMFAddressInformation : AccDef := ⟨0, [
  (T.PMFAddressInformation, .leaf .pmfAddressInformation),
  (T.ATSSSControlParameters, .descend .ATSSSControlParameters [(T.PMFParameters, .PMFAddressInformation)]),
  (T.PMFParameters, .descend .PMFParameters [(T.PMFAddressInformation, .PMFAddressInformation)])]⟩

/-- `IE.PMFControlInformation`, /repo/ie/pmf-control-information.go:13-31. -/
def dPMFControlInformation : AccDef := ⟨0, [
  (T.PMFControlInformation, .leaf .u8),
  (T.ProvideATSSSControlInformation, .descend .ProvideATSSSControlInformation [(T.PMFControlInformation, .PMFControlInformation)])]⟩

/-- `IE.PMFParameters`, /repo/ie/pmf-parameters.go:13-31. -/
def dPMFParameters : AccDef := ⟨0, [
  (T.PMFParameters, .leaf .ies),
  (T.ATSSSControlParameters, .descend .ATSSSControlParameters [(T.PMFParameters, .PMFParameters)])]⟩

/-- `IE.PortManagementInformationContainer`, /repo/ie/port-management-information-container.go:13-33. -/
def dPortManagementInformationContainer : AccDef := ⟨0, [
  (T.PortManagementInformationContainer, .leaf .str),
  (T.TSCManagementInformationWithinSessionModificationRequest, .descend .TSCManagementInformation [(T.PortManagementInformationContainer, .PortManagementInformationContainer)]),
  (T.TSCManagementInformationWithinSessionModificationResponse, .descend .TSCManagementInformation [(T.PortManagementInformationContainer, .PortManagementInformationContainer)]),
  (T.TSCManagementInformationWithinSessionReportRequest, .descend .TSCManagementInformation [(T.PortManagementInformationContainer, .PortManagementInformationContainer)])]⟩

/-- `IE.Precedence`, /repo/ie/precedence.go:13-42. -/
def dPrecedence : AccDef := ⟨0, [
  (T.Precedence, .leaf .u32),
  (T.CreatePDR, .descend .CreatePDR [(T.Precedence, .Precedence)]),
  (T.UpdatePDR, .descend .UpdatePDR [(T.Precedence, .Precedence)])]⟩

/-- `IE.Priority`, /repo/ie/priority.go:22-97. -/
def dPriority : AccDef := ⟨0, [
  (T.Priority, .leaf .u8),
  (T.CreateMAR, .descend .CreateMAR [(T.TGPPAccessForwardingActionInformation, .Priority), (T.NonTGPPAccessForwardingActionInformation, .Priority)]),
  (T.UpdateMAR, .descend .UpdateMAR [(T.TGPPAccessForwardingActionInformation, .Priority), (T.NonTGPPAccessForwardingActionInformation, .Priority)]),
  (T.TGPPAccessForwardingActionInformation, .descend .TGPPAccessForwardingActionInformation [(T.Priority, .Priority)]),
  (T.NonTGPPAccessForwardingActionInformation, .descend .NonTGPPAccessForwardingActionInformation [(T.Priority, .Priority)]),
  (T.UpdateTGPPAccessForwardingActionInformation, .descend .UpdateTGPPAccessForwardingActionInformation [(T.Priority, .Priority)]),
  (T.UpdateNonTGPPAccessForwardingActionInformation, .descend .UpdateNonTGPPAccessForwardingActionInformation [(T.Priority, .Priority)])]⟩

/-- `IE.ProvideATSSSControlInformation`, /repo/ie/provide-atsss-control-information.go:13-19. -/
def dProvideATSSSControlInformation : AccDef := ⟨0, [
  (T.ProvideATSSSControlInformation, .leaf .ies)]⟩

/-- `IE.ProvideRDSConfigurationInformation`, /repo/ie/provide-rds-configuration-information.go:13-19. -/
def dProvideRDSConfigurationInformation : AccDef := ⟨0, [
  (T.ProvideRDSConfigurationInformation, .leaf .ies)]⟩

/-- `IE.Proxying`, /repo/ie/proxying.go:13-42. -/
def dProxying : AccDef := ⟨0, [
  (T.Proxying, .leaf .u8),
  (T.ForwardingParameters, .descend .ForwardingParameters [(T.Proxying, .Proxying)]),
  (T.UpdateForwardingParameters, .descend .UpdateForwardingParameters [(T.Proxying, .Proxying)])]⟩

/-- `IE.QERControlIndications`, /repo/ie/qer-control-indications.go:13-43. -/
def dQERControlIndications : AccDef := ⟨0, [
  (T.QERControlIndications, .leaf .u8),
  (T.CreateQER, .descend .CreateQER [(T.QERControlIndications, .QERControlIndications)]),
  (T.UpdateQER, .descend .UpdateQER [(T.QERControlIndications, .QERControlIndications)])]⟩

/-- `IE.QERCorrelationID`, /repo/ie/qer-correlation-id.go:13-42. -/
def dQERCorrelationID : AccDef := ⟨0, [
  (T.QERCorrelationID, .leaf .u32),
  (T.CreateQER, .descend .CreateQER [(T.QERCorrelationID, .QERCorrelationID)]),
  (T.UpdateQER, .descend .UpdateQER [(T.QERCorrelationID, .QERCorrelationID)])]⟩

/-- `IE.QERID`, /repo/ie/qer-id.go:13-86. -/
def dQERID : AccDef := ⟨0, [
  (T.QERID, .leaf .u32),
  (T.CreatePDR, .descend .CreatePDR [(T.QERID, .QERID)]),
  (T.UpdatePDR, .descend .UpdatePDR [(T.QERID, .QERID)]),
  (T.CreateQER, .descend .CreateQER [(T.QERID, .QERID)]),
  (T.UpdateQER, .descend .UpdateQER [(T.QERID, .QERID)]),
  (T.RemoveQER, .descend .RemoveQER [(T.QERID, .QERID)]),
  (T.PacketRateStatusReport, .descend .PacketRateStatusReport [(T.QERID, .QERID)])]⟩

/-- `IE.QFI`, /repo/ie/qfi.go:15-94. -/
def dQFI : AccDef := ⟨0, [
  (T.QFI, .leaf .u8),
  (T.DownlinkDataServiceInformation, .leaf (.byteMin 2 2)),
  (T.CreateQER, .descend .CreateQER [(T.QFI, .QFI)]),
  (T.UpdateQER, .descend .UpdateQER [(T.QFI, .QFI)]),
  (T.CreateTrafficEndpoint, .descend .CreateTrafficEndpoint [(T.QFI, .QFI)]),
  (T.UpdateTrafficEndpoint, .descend .UpdateTrafficEndpoint [(T.QFI, .QFI)]),
  (T.QoSMonitoringPerQoSFlowControlInformation, .descend .QoSMonitoringPerQoSFlowControlInformation [(T.QFI, .QFI)]),
  (T.QoSMonitoringReport, .descend .QoSMonitoringReport [(T.QFI, .QFI)])]⟩

/-- `IE.QoSInformationInGTPUPathQoSReport`, /repo/ie/qos-information-in-gtp-u-path-qos-report.go:13-31. -/
def dQoSInformationInGTPUPathQoSReport : AccDef := ⟨0, [
  (T.QoSInformationInGTPUPathQoSReport, .leaf .ies),
  (T.GTPUPathQoSReport, .descend .GTPUPathQoSReport [(T.QoSInformationInGTPUPathQoSReport, .QoSInformationInGTPUPathQoSReport)])]⟩

/-- `IE.QoSMonitoringMeasurement`, /repo/ie/qos-monitoring-measurement.go:25-48. -/
def dQoSMonitoringMeasurement : AccDef := ⟨0, [
  (T.QoSMonitoringMeasurement, .leaf .delays),
  (T.QoSMonitoringReport, .descend .QoSMonitoringReport [(T.QoSMonitoringMeasurement, .QoSMonitoringMeasurement)])]⟩

/-- `IE.QoSMonitoringPerQoSFlowControlInformation`, /repo/ie/qos-monitoring-per-qos-flow-control-information.go:13-42. -/
def dQoSMonitoringPerQoSFlowControlInformation : AccDef := ⟨0, [
  (T.QoSMonitoringPerQoSFlowControlInformation, .leaf .ies),
  (T.CreateSRR, .descend .CreateSRR [(T.QoSMonitoringPerQoSFlowControlInformation, .QoSMonitoringPerQoSFlowControlInformation)]),
  (T.UpdateSRR, .descend .UpdateSRR [(T.QoSMonitoringPerQoSFlowControlInformation, .QoSMonitoringPerQoSFlowControlInformation)])]⟩

/-- `IE.QoSMonitoringReport`, /repo/ie/qos-monitoring-report.go:13-31. -/
def dQoSMonitoringReport : AccDef := ⟨0, [
  (T.QoSMonitoringReport, .leaf .ies),
  (T.SessionReport, .descend .SessionReport [(T.QoSMonitoringReport, .QoSMonitoringReport)])]⟩

/-- `IE.QoSReportTrigger`, /repo/ie/qos-report-trigger.go:13-43. -/
def dQoSReportTrigger : AccDef := ⟨0, [
  (T.QoSReportTrigger, .leaf .u8),
  (T.GTPUPathQoSControlInformation, .descend .GTPUPathQoSControlInformation [(T.QoSReportTrigger, .QoSReportTrigger)]),
  (T.GTPUPathQoSReport, .descend .GTPUPathQoSReport [(T.QoSReportTrigger, .QoSReportTrigger)])]⟩

/-- `IE.QueryPacketRateStatus`, /repo/ie/query-packet-rate-status.go:13-19. -/
def dQueryPacketRateStatus : AccDef := ⟨0, [
  (T.QueryPacketRateStatusWithinSessionModificationRequest, .leaf .ies)]⟩

/-- `IE.QueryURRReference`, /repo/ie/query-urr-reference.go:13-32. -/
def dQueryURRReference : AccDef := ⟨0, [
  (T.QueryURRReference, .leaf .u32),
  (T.UsageReportWithinSessionModificationResponse, .descend .UsageReport [(T.QueryURRReference, .QueryURRReference)]),
  (T.UsageReportWithinSessionReportRequest, .descend .UsageReport [(T.QueryURRReference, .QueryURRReference)])]⟩

/-- `IE.QueryURR`, /repo/ie/query-urr.go:13-19. -/
def dQueryURR : AccDef := ⟨0, [
  (T.QueryURR, .leaf .ies)]⟩

/-- `IE.QuotaHoldingTime`, /repo/ie/quota-holding-time.go:21-54. -/
def dQuotaHoldingTime : AccDef := ⟨4, [
  (T.QuotaHoldingTime, .leaf .sec32),
  (T.CreateURR, .descend .CreateURR [(T.QuotaHoldingTime, .QuotaHoldingTime)]),
  (T.UpdateURR, .descend .UpdateURR [(T.QuotaHoldingTime, .QuotaHoldingTime)])]⟩

/-- `IE.QuotaValidityTime`, /repo/ie/quota-validity-time.go:19-53. -/
def dQuotaValidityTime : AccDef := ⟨4, [
  (T.QuotaValidityTime, .leaf .sec32),
  (T.CreateURR, .descend .CreateURR [(T.QuotaValidityTime, .QuotaValidityTime)]),
  (T.UpdateURR, .descend .UpdateURR [(T.QuotaValidityTime, .QuotaValidityTime)])]⟩

/-- `IE.RDSConfigurationInformation`, /repo/ie/rds-configuration-information.go:13-31. -/
def dRDSConfigurationInformation : AccDef := ⟨0, [
  (T.RDSConfigurationInformation, .leaf .u8),
  (T.ProvideRDSConfigurationInformation, .descend .ProvideRDSConfigurationInformation [(T.RDSConfigurationInformation, .RDSConfigurationInformation)])]⟩

/-- `IE.RecoveryTimeStamp`, /repo/ie/recovery-time-stamp.go:18-24. -/
def dRecoveryTimeStamp : AccDef := ⟨0, [
  (T.RecoveryTimeStamp, .leaf .timestamp)]⟩

/-- `IE.RedirectInformation`, /repo/ie/redirect-information.go:25-58. -/
def dRedirectInformation : AccDef := ⟨0, [
  (T.RedirectInformation, .leaf .redirectInformation),
  (T.ForwardingParameters, .descend .ForwardingParameters [(T.RedirectInformation, .RedirectInformation)]),
  (T.UpdateForwardingParameters, .descend .UpdateForwardingParameters [(T.RedirectInformation, .RedirectInformation)])]⟩

/-- `IE.RedundantTransmissionForwardingParameters`, /repo/ie/redundant-transmission-forwarding-parameters.go:13-31. -/
def dRedundantTransmissionForwardingParameters : AccDef := ⟨0, [
  (T.RedundantTransmissionForwardingParameters, .leaf .ies),
  (T.CreateFAR, .descend .CreateFAR [(T.RedundantTransmissionForwardingParameters, .RedundantTransmissionForwardingParameters)])]⟩

/-- `IE.RedundantTransmissionParameters`, /repo/ie/redundant-transmission-parameters.go:23-96. -/
def dRedundantTransmissionParameters : AccDef := ⟨0, [
  (T.RedundantTransmissionParameters, .leaf .ies),
  (T.CreatePDR, .descend .CreatePDR [(T.PDI, .RedundantTransmissionParameters)]),
  (T.PDI, .descend .PDI [(T.RedundantTransmissionParameters, .RedundantTransmissionParameters)]),
  (T.CreateFAR, .descend .CreateFAR [(T.RedundantTransmissionParameters, .RedundantTransmissionParameters)]),
  (T.UpdateFAR, .descend .UpdateFAR [(T.RedundantTransmissionParameters, .RedundantTransmissionParameters)]),
  (T.CreateTrafficEndpoint, .descend .CreateTrafficEndpoint [(T.RedundantTransmissionParameters, .RedundantTransmissionParameters)]),
  (T.UpdateTrafficEndpoint, .descend .UpdateTrafficEndpoint [(T.RedundantTransmissionParameters, .RedundantTransmissionParameters)])]⟩

/-- `IE.RemoteGTPUPeer`, /repo/ie/remote-gtp-u-peer.go:25-81. -/
def dRemoteGTPUPeer : AccDef := ⟨0, [
  (T.RemoteGTPUPeer, .leaf .remoteGTPUPeer),
  (T.UserPlanePathFailureReport, .descend .UserPlanePathFailureReport [(T.RemoteGTPUPeer, .RemoteGTPUPeer)]),
  (T.UserPlanePathRecoveryReport, .descend .UserPlanePathRecoveryReport [(T.RemoteGTPUPeer, .RemoteGTPUPeer)]),
  (T.GTPUPathQoSControlInformation, .descend .GTPUPathQoSControlInformation [(T.RemoteGTPUPeer, .RemoteGTPUPeer)]),
  (T.GTPUPathQoSReport, .descend .GTPUPathQoSReport [(T.RemoteGTPUPeer, .RemoteGTPUPeer)])]⟩

/-- `IE.RemoveBAR`, /repo/ie/remove-bar.go:13-19. -/
def dRemoveBAR : AccDef := ⟨0, [
  (T.RemoveBAR, .leaf .ies)]⟩

/-- `IE.RemoveFAR`, /repo/ie/remove-far.go:13-19. -/
def dRemoveFAR : AccDef := ⟨0, [
  (T.RemoveFAR, .leaf .ies)]⟩

/-- `IE.RemoveMAR`, /repo/ie/remove-mar.go:13-19. -/
def dRemoveMAR : AccDef := ⟨0, [
  (T.RemoveMAR, .leaf .ies)]⟩

/-- `IE.RemovePDR`, /repo/ie/remove-pdr.go:13-19. -/
def dRemovePDR : AccDef := ⟨0, [
  (T.RemovePDR, .leaf .ies)]⟩

/-- `IE.RemoveQER`, /repo/ie/remove-qer.go:13-19. -/
def dRemoveQER : AccDef := ⟨0, [
  (T.RemoveQER, .leaf .ies)]⟩

/-- `IE.RemoveSRR`, /repo/ie/remove-srr.go:13-19. -/
def dRemoveSRR : AccDef := ⟨0, [
  (T.RemoveSRR, .leaf .ies)]⟩

/-- `IE.RemoveTrafficEndpoint`, /repo/ie/remove-traffic-endpoint.go:13-19. -/
def dRemoveTrafficEndpoint : AccDef := ⟨0, [
  (T.RemoveTrafficEndpoint, .leaf .ies)]⟩

/-- `IE.RemoveURR`, /repo/ie/remove-urr.go:13-19. -/
def dRemoveURR : AccDef := ⟨0, [
  (T.RemoveURR, .leaf .ies)]⟩

/-- `IE.ReportType`, /repo/ie/report-type.go:13-19. -/
def dReportType : AccDef := ⟨0, [
  (T.ReportType, .leaf .u8)]⟩

/-- `IE.ReportingFrequency`, /repo/ie/reporting-frequency.go:13-32. -/
def dReportingFrequency : AccDef := ⟨0, [
  (T.ReportingFrequency, .leaf .u8),
  (T.QoSMonitoringPerQoSFlowControlInformation, .descend .QoSMonitoringPerQoSFlowControlInformation [(T.ReportingFrequency, .ReportingFrequency)])]⟩

/-- `IE.ReportingTriggers`, /repo/ie/reporting-triggers.go:17-50. -/
def dReportingTriggers : AccDef := ⟨2, [
  (T.ReportingTriggers, .leaf .payload),
  (T.CreateURR, .descend .CreateURR [(T.ReportingTriggers, .ReportingTriggers)]),
  (T.UpdateURR, .descend .UpdateURR [(T.ReportingTriggers, .ReportingTriggers)])]⟩

/-- `IE.RequestedAccessAvailabilityInformation`, /repo/ie/requested-access-availability-information.go:13-32. -/
def dRequestedAccessAvailabilityInformation : AccDef := ⟨0, [
  (T.RequestedAccessAvailabilityInformation, .leaf .u8),
  (T.AccessAvailabilityControlInformation, .descend .AccessAvailabilityControlInformation [(T.RequestedAccessAvailabilityInformation, .RequestedAccessAvailabilityInformation)])]⟩

/-- `IE.RequestedClockDriftInformation`, /repo/ie/requested-clock-drift-information.go:13-32. -/
def dRequestedClockDriftInformation : AccDef := ⟨0, [
  (T.RequestedClockDriftInformation, .leaf .u8),
  (T.ClockDriftControlInformation, .descend .ClockDriftControlInformation [(T.RequestedClockDriftInformation, .RequestedClockDriftInformation)])]⟩

/-- `IE.RequestedQoSMonitoring`, /repo/ie/requested-qos-monitoring.go:13-32. -/
def dRequestedQoSMonitoring : AccDef := ⟨0, [
  (T.RequestedQoSMonitoring, .leaf .u8),
  (T.QoSMonitoringPerQoSFlowControlInformation, .descend .QoSMonitoringPerQoSFlowControlInformation [(T.RequestedQoSMonitoring, .RequestedQoSMonitoring)])]⟩

/-- `IE.RQI`, /repo/ie/rqi.go:13-42. -/
def dRQI : AccDef := ⟨0, [
  (T.RQI, .leaf .u8),
  (T.CreateQER, .descend .CreateQER [(T.RQI, .RQI)]),
  (T.UpdateQER, .descend .UpdateQER [(T.RQI, .RQI)])]⟩

/-- `IE.SNSSAI`, /repo/ie/s-nssai.go:22-44. -/
def dSNSSAI : AccDef := ⟨4, [
  (T.SNSSAI, .leaf (.prefix 4)),
  (T.UEIPAddressPoolInformation, .descend .UEIPAddressPoolInformation [(T.SNSSAI, .SNSSAI)])]⟩

/-- `IE.STAG`, /repo/ie/s-tag.go:25-82. -/
def dSTAG : AccDef := ⟨0, [
  (T.STAG, .leaf .tag),
  (T.PDI, .descend .PDI [(T.EthernetPacketFilter, .STAG)]),
  (T.EthernetPacketFilter, .descend .EthernetPacketFilter [(T.STAG, .STAG)]),
  (T.MACAddressesDetected, .leaf .stagOf),
  (T.MACAddressesRemoved, .leaf .stagOf),
  (T.EthernetContextInformation, .descend .EthernetContextInformation [(T.MACAddressesDetected, .STAG)])]⟩

/-- `IE.SDFFilter`, /repo/ie/sdf-filter.go:26-71. -/
def dSDFFilter : AccDef := ⟨0, [
  (T.SDFFilter, .leaf .sdfFilter),
  (T.CreatePDR, .descend .CreatePDR [(T.PDI, .SDFFilter)]),
  (T.PDI, .descend .PDI [(T.SDFFilter, .SDFFilter)]),
  (T.EthernetPacketFilter, .descend .EthernetPacketFilter [(T.SDFFilter, .SDFFilter)])]⟩

/-- `IE.SequenceNumber`, /repo/ie/sequence-number.go:13-43. -/
def dSequenceNumber : AccDef := ⟨0, [
  (T.SequenceNumber, .leaf .u32),
  (T.LoadControlInformation, .descend .LoadControlInformation [(T.SequenceNumber, .SequenceNumber)]),
  (T.OverloadControlInformation, .descend .OverloadControlInformation [(T.SequenceNumber, .SequenceNumber)])]⟩

/-- `IE.SessionReport`, /repo/ie/session-report.go:13-20. -/
def dSessionReport : AccDef := ⟨0, [
  (T.SessionReport, .leaf .ies)]⟩

/-- `IE.SMFSetID`, /repo/ie/smf-set-id.go:13-19. -/
def dSMFSetID : AccDef := ⟨0, [
  (T.SMFSetID, .leaf .fqdn)]⟩

/-- `IE.SourceInterface`, /repo/ie/source-interface.go:22-62. -/
def dSourceInterface : AccDef := ⟨0, [
  (T.SourceInterface, .leaf .u8),
  (T.CreatePDR, .descend .CreatePDR [(T.PDI, .SourceInterface)]),
  (T.UpdatePDR, .descend .UpdatePDR [(T.PDI, .SourceInterface)]),
  (T.PDI, .descend .PDI [(T.SourceInterface, .SourceInterface)])]⟩

/-- `IE.SourceIPAddress`, /repo/ie/source-ip-address.go:25-81. -/
def dSourceIPAddress : AccDef := ⟨0, [
  (T.SourceIPAddress, .leaf .sourceIPAddress),
  (T.CreatePDR, .descend .CreatePDR [(T.IPMulticastAddressingInfo, .SourceIPAddress)]),
  (T.IPMulticastAddressingInfo, .descend .IPMulticastAddressingInfo [(T.SourceIPAddress, .SourceIPAddress)]),
  (T.JoinIPMulticastInformationWithinUsageReport, .descend .JoinIPMulticastInformationWithinUsageReport [(T.SourceIPAddress, .SourceIPAddress)]),
  (T.LeaveIPMulticastInformationWithinUsageReport, .descend .LeaveIPMulticastInformationWithinUsageReport [(T.SourceIPAddress, .SourceIPAddress)])]⟩

/-- `IE.SRRID`, /repo/ie/srr-id.go:13-68. -/
def dSRRID : AccDef := ⟨0, [
  (T.SRRID, .leaf .u8),
  (T.RemoveSRR, .descend .RemoveSRR [(T.SRRID, .SRRID)]),
  (T.CreateSRR, .descend .CreateSRR [(T.SRRID, .SRRID)]),
  (T.UpdateSRR, .descend .UpdateSRR [(T.SRRID, .SRRID)]),
  (T.SessionReport, .descend .SessionReport [(T.SRRID, .SRRID)])]⟩

/-- `IE.StartTime`, /repo/ie/start-time.go:18-60. -/
def dStartTime : AccDef := ⟨0, [
  (T.StartTime, .leaf .timestamp),
  (T.UsageReportWithinSessionModificationResponse, .descend .UsageReport [(T.StartTime, .StartTime)]),
  (T.UsageReportWithinSessionDeletionResponse, .descend .UsageReport [(T.StartTime, .StartTime)]),
  (T.UsageReportWithinSessionReportRequest, .descend .UsageReport [(T.StartTime, .StartTime)]),
  (T.GTPUPathQoSReport, .descend .GTPUPathQoSReport [(T.StartTime, .StartTime)]),
  (T.QoSMonitoringReport, .descend .QoSMonitoringReport [(T.StartTime, .StartTime)])]⟩

/-- `IE.SteeringFunctionality`, /repo/ie/steering-functionality.go:19-48. -/
def dSteeringFunctionality : AccDef := ⟨0, [
  (T.SteeringFunctionality, .leaf .u8),
  (T.CreateMAR, .descend .CreateMAR [(T.SteeringFunctionality, .SteeringFunctionality)]),
  (T.UpdateMAR, .descend .UpdateMAR [(T.SteeringFunctionality, .SteeringFunctionality)])]⟩

/-- `IE.SteeringMode`, /repo/ie/steering-mode.go:21-50. -/
def dSteeringMode : AccDef := ⟨0, [
  (T.SteeringMode, .leaf .u8),
  (T.CreateMAR, .descend .CreateMAR [(T.SteeringMode, .SteeringMode)]),
  (T.UpdateMAR, .descend .UpdateMAR [(T.SteeringMode, .SteeringMode)])]⟩

/-- `IE.SubsequentEventQuota`, /repo/ie/subsequent-event-quota.go:13-53. -/
def dSubsequentEventQuota : AccDef := ⟨0, [
  (T.SubsequentEventQuota, .leaf .u32),
  (T.CreateURR, .descend .CreateURR [(T.SubsequentEventQuota, .SubsequentEventQuota)]),
  (T.UpdateURR, .descend .UpdateURR [(T.SubsequentEventQuota, .SubsequentEventQuota)]),
  (T.AdditionalMonitoringTime, .descend .AdditionalMonitoringTime [(T.SubsequentEventQuota, .SubsequentEventQuota)])]⟩

/-- `IE.SubsequentEventThreshold`, /repo/ie/subsequent-event-threshold.go:13-53. -/
def dSubsequentEventThreshold : AccDef := ⟨0, [
  (T.SubsequentEventThreshold, .leaf .u32),
  (T.CreateURR, .descend .CreateURR [(T.SubsequentEventThreshold, .SubsequentEventThreshold)]),
  (T.UpdateURR, .descend .UpdateURR [(T.SubsequentEventThreshold, .SubsequentEventThreshold)]),
  (T.AdditionalMonitoringTime, .descend .AdditionalMonitoringTime [(T.SubsequentEventThreshold, .SubsequentEventThreshold)])]⟩

/-- `IE.SubsequentTimeQuota`, /repo/ie/subsequent-time-quota.go:20-60. -/
def dSubsequentTimeQuota : AccDef := ⟨0, [
  (T.SubsequentTimeQuota, .leaf .sec32),
  (T.CreateURR, .descend .CreateURR [(T.SubsequentTimeQuota, .SubsequentTimeQuota)]),
  (T.UpdateURR, .descend .UpdateURR [(T.SubsequentTimeQuota, .SubsequentTimeQuota)]),
  (T.AdditionalMonitoringTime, .descend .AdditionalMonitoringTime [(T.SubsequentTimeQuota, .SubsequentTimeQuota)])]⟩

/-- `IE.SubsequentTimeThreshold`, /repo/ie/subsequent-time-threshold.go:19-64. -/
def dSubsequentTimeThreshold : AccDef := ⟨4, [
  (T.SubsequentTimeThreshold, .leaf .sec32),
  (T.CreateURR, .descend .CreateURR [(T.SubsequentTimeThreshold, .SubsequentTimeThreshold)]),
  (T.UpdateURR, .descend .UpdateURR [(T.SubsequentTimeThreshold, .SubsequentTimeThreshold)]),
  (T.AdditionalMonitoringTime, .descend .AdditionalMonitoringTime [(T.SubsequentTimeThreshold, .SubsequentTimeThreshold)])]⟩

/-- `IE.SubsequentVolumeQuota`, /repo/ie/subsequent-volume-quota.go:25-70. -/
def dSubsequentVolumeQuota : AccDef := ⟨0, [
  (T.SubsequentVolumeQuota, .leaf .volume),
  (T.CreateURR, .descend .CreateURR [(T.SubsequentVolumeQuota, .SubsequentVolumeQuota)]),
  (T.UpdateURR, .descend .UpdateURR [(T.SubsequentVolumeQuota, .SubsequentVolumeQuota)]),
  (T.AdditionalMonitoringTime, .descend .AdditionalMonitoringTime [(T.SubsequentVolumeQuota, .SubsequentVolumeQuota)])]⟩

/-- `IE.SubsequentVolumeThreshold`, /repo/ie/subsequent-volume-threshold.go:25-70. -/
def dSubsequentVolumeThreshold : AccDef := ⟨0, [
  (T.SubsequentVolumeThreshold, .leaf .volume),
  (T.CreateURR, .descend .CreateURR [(T.SubsequentVolumeThreshold, .SubsequentVolumeThreshold)]),
  (T.UpdateURR, .descend .UpdateURR [(T.SubsequentVolumeThreshold, .SubsequentVolumeThreshold)]),
  (T.AdditionalMonitoringTime, .descend .AdditionalMonitoringTime [(T.SubsequentVolumeThreshold, .SubsequentVolumeThreshold)])]⟩

/-- `IE.SuggestedBufferingPacketsCount`, /repo/ie/suggested-buffering-packets-count.go:13-43. -/
def dSuggestedBufferingPacketsCount : AccDef := ⟨0, [
  (T.SuggestedBufferingPacketsCount, .leaf .u8),
  (T.CreateBAR, .descend .CreateBAR [(T.SuggestedBufferingPacketsCount, .SuggestedBufferingPacketsCount)]),
  (T.UpdateBARWithinSessionReportResponse, .descend .UpdateBAR [(T.SuggestedBufferingPacketsCount, .SuggestedBufferingPacketsCount)]),
  (T.UpdateBARWithinSessionModificationRequest, .descend .UpdateBAR [(T.SuggestedBufferingPacketsCount, .SuggestedBufferingPacketsCount)])]⟩

/-- `IE.TGPPAccessForwardingActionInformation`, /repo/ie/tgpp-access-forwarding-action-information.go:13-42. -/
def dTGPPAccessForwardingActionInformation : AccDef := ⟨0, [
  (T.TGPPAccessForwardingActionInformation, .leaf .ies),
  (T.CreateMAR, .descend .CreateMAR [(T.TGPPAccessForwardingActionInformation, .TGPPAccessForwardingActionInformation)]),
  (T.UpdateMAR, .descend .UpdateMAR [(T.TGPPAccessForwardingActionInformation, .TGPPAccessForwardingActionInformation)])]⟩

/-- `IE.TGPPInterfaceType`, /repo/ie/tgpp-interface-type.go:40-73. -/
def dTGPPInterfaceType : AccDef := ⟨1, [
  (T.TGPPInterfaceType, .leaf (.mask 0x3f)),
  (T.ForwardingParameters, .descend .ForwardingParameters [(T.TGPPInterfaceType, .TGPPInterfaceType)]),
  (T.UpdateForwardingParameters, .descend .UpdateForwardingParameters [(T.TGPPInterfaceType, .TGPPInterfaceType)])]⟩

/-- `IE.TimeOfFirstPacket`, /repo/ie/time-of-first-packet.go:18-38. -/
def dTimeOfFirstPacket : AccDef := ⟨0, [
  (T.TimeOfFirstPacket, .leaf .timestamp),
  (T.UsageReportWithinSessionModificationResponse, .descend .UsageReport [(T.TimeOfFirstPacket, .TimeOfFirstPacket)]),
  (T.UsageReportWithinSessionDeletionResponse, .descend .UsageReport [(T.TimeOfFirstPacket, .TimeOfFirstPacket)]),
  (T.UsageReportWithinSessionReportRequest, .descend .UsageReport [(T.TimeOfFirstPacket, .TimeOfFirstPacket)])]⟩

/-- `IE.TimeOfLastPacket`, /repo/ie/time-of-last-packet.go:18-38. -/
def dTimeOfLastPacket : AccDef := ⟨0, [
  (T.TimeOfLastPacket, .leaf .timestamp),
  (T.UsageReportWithinSessionModificationResponse, .descend .UsageReport [(T.TimeOfLastPacket, .TimeOfLastPacket)]),
  (T.UsageReportWithinSessionDeletionResponse, .descend .UsageReport [(T.TimeOfLastPacket, .TimeOfLastPacket)]),
  (T.UsageReportWithinSessionReportRequest, .descend .UsageReport [(T.TimeOfLastPacket, .TimeOfLastPacket)])]⟩

/-- `IE.TimeOffsetMeasurement`, /repo/ie/time-offset-measurement.go:19-30. -/
def dTimeOffsetMeasurement : AccDef := ⟨8, [
  (T.TimeOffsetMeasurement, .leaf .ns64)]⟩

/-- `IE.TimeOffsetThreshold`, /repo/ie/time-offset-threshold.go:19-54. -/
def dTimeOffsetThreshold : AccDef := ⟨8, [
  (T.TimeOffsetThreshold, .leaf .ns64),
  (T.ClockDriftControlInformation, .descend .ClockDriftControlInformation [(T.TimeOffsetThreshold, .TimeOffsetThreshold)]),
  (T.ClockDriftReport, .descend .ClockDriftReport [(T.TimeOffsetThreshold, .TimeOffsetThreshold)])]⟩

/-- `IE.TimeQuotaMechanism`, /repo/ie/time-quota-mechanism.go:28-57. -/
def dTimeQuotaMechanism : AccDef := ⟨0, [
  (T.TimeQuotaMechanism, .leaf .payload),
  (T.CreateURR, .descend .CreateURR [(T.TimeQuotaMechanism, .TimeQuotaMechanism)]),
  (T.UpdateURR, .descend .UpdateURR [(T.TimeQuotaMechanism, .TimeQuotaMechanism)])]⟩

/-- `IE.TimeQuota`, /repo/ie/time-quota.go:21-54. -/
def dTimeQuota : AccDef := ⟨4, [
  (T.TimeQuota, .leaf .sec32),
  (T.CreateURR, .descend .CreateURR [(T.TimeQuota, .TimeQuota)]),
  (T.UpdateURR, .descend .UpdateURR [(T.TimeQuota, .TimeQuota)])]⟩

/-- `IE.TimeThreshold`, /repo/ie/time-threshold.go:19-53. -/
def dTimeThreshold : AccDef := ⟨4, [
  (T.TimeThreshold, .leaf .sec32),
  (T.CreateURR, .descend .CreateURR [(T.TimeThreshold, .TimeThreshold)]),
  (T.UpdateURR, .descend .UpdateURR [(T.TimeThreshold, .TimeThreshold)])]⟩

/-- `IE.Timer`, /repo/ie/timer.go:55-105. -/
def dTimer : AccDef := ⟨1, [
  (T.Timer, .leaf .timer),
  (T.OverloadControlInformation, .descend .OverloadControlInformation [(T.Timer, .Timer)]),
  (T.GTPUPathQoSControlInformation, .descend .GTPUPathQoSControlInformation [(T.Timer, .Timer)])]⟩

/-- `IE.TraceInformation`, /repo/ie/trace-information.go:27-39. -/
def dTraceInformation : AccDef := ⟨0, [
  (T.TraceInformation, .leaf .traceInformation)]⟩

/-- `IE.TrafficEndpointID`, /repo/ie/traffic-endpoint-id.go:13-108. -/
def dTrafficEndpointID : AccDef := ⟨0, [
  (T.TrafficEndpointID, .leaf .u8),
  (T.CreatePDR, .descend .CreatePDR [(T.PDI, .TrafficEndpointID)]),
  (T.PDI, .descend .PDI [(T.TrafficEndpointID, .TrafficEndpointID)]),
  (T.ForwardingParameters, .descend .ForwardingParameters [(T.TrafficEndpointID, .TrafficEndpointID)]),
  (T.UpdateForwardingParameters, .descend .UpdateForwardingParameters [(T.TrafficEndpointID, .TrafficEndpointID)]),
  (T.CreateTrafficEndpoint, .descend .CreateTrafficEndpoint [(T.TrafficEndpointID, .TrafficEndpointID)]),
  (T.CreatedTrafficEndpoint, .descend .CreatedTrafficEndpoint [(T.TrafficEndpointID, .TrafficEndpointID)]),
  (T.UpdateTrafficEndpoint, .descend .UpdateTrafficEndpoint [(T.TrafficEndpointID, .TrafficEndpointID)]),
  (T.RemoveTrafficEndpoint, .descend .RemoveTrafficEndpoint [(T.TrafficEndpointID, .TrafficEndpointID)])]⟩

/-- `IE.TransportDelayReporting`, /repo/ie/transport-delay-reporting.go:13-42. -/
def dTransportDelayReporting : AccDef := ⟨0, [
  (T.TransportDelayReporting, .leaf .ies),
  (T.CreatePDR, .descend .CreatePDR [(T.TransportDelayReporting, .TransportDelayReporting)]),
  (T.UpdatePDR, .descend .UpdatePDR [(T.TransportDelayReporting, .TransportDelayReporting)])]⟩

/-- `IE.TransportLevelMarking`, /repo/ie/transport-level-marking.go:13-98. -/
def dTransportLevelMarking : AccDef := ⟨0, [
  (T.TransportLevelMarking, .leaf .u16),
  (T.ForwardingParameters, .descend .ForwardingParameters [(T.TransportLevelMarking, .TransportLevelMarking)]),
  (T.UpdateForwardingParameters, .descend .UpdateForwardingParameters [(T.TransportLevelMarking, .TransportLevelMarking)]),
  (T.DuplicatingParameters, .descend .DuplicatingParameters [(T.TransportLevelMarking, .TransportLevelMarking)]),
  (T.UpdateDuplicatingParameters, .descend .UpdateDuplicatingParameters [(T.TransportLevelMarking, .TransportLevelMarking)]),
  (T.GTPUPathQoSControlInformation, .descend .GTPUPathQoSControlInformation [(T.TransportLevelMarking, .TransportLevelMarking)]),
  (T.GTPUPathQoSReport, .descend .GTPUPathQoSReport [(T.TransportLevelMarking, .TransportLevelMarking)]),
  (T.QoSInformationInGTPUPathQoSReport, .descend .QoSInformationInGTPUPathQoSReport [(T.TransportLevelMarking, .TransportLevelMarking)])]⟩

/-- `IE.TSCManagementInformation`, /repo/ie/tsc-management-information.go:28-38. -/
def dTSCManagementInformation : AccDef := ⟨0, [
  (T.TSCManagementInformationWithinSessionModificationRequest, .leaf .ies),
  (T.TSCManagementInformationWithinSessionModificationResponse, .leaf .ies),
  (T.TSCManagementInformationWithinSessionReportRequest, .leaf .ies)]⟩

/-- `IE.PortManagementInformationForTSC`, /repo/ie/tsc-management-information.go:61-71. -/
def dPortManagementInformationForTSC : AccDef := ⟨0, [
  (T.PortManagementInformationForTSCWithinSessionModificationRequest, .leaf .ies),
  (T.PortManagementInformationForTSCWithinSessionModificationResponse, .leaf .ies),
  (T.PortManagementInformationForTSCWithinSessionReportRequest, .leaf .ies)]⟩

/-- `IE.TSNBridgeID`, /repo/ie/tsn-bridge-id.go:35-66. -/
def dTSNBridgeID : AccDef := ⟨1, [
  (T.TSNBridgeID, .leaf .tsnBridgeID),
  (T.CreatedBridgeInfoForTSC, .descend .CreatedBridgeInfoForTSC [(T.TSNBridgeID, .TSNBridgeID)])]⟩

/-- `IE.TSNTimeDomainNumber`, /repo/ie/tsn-time-domain-number.go:13-44. -/
def dTSNTimeDomainNumber : AccDef := ⟨0, [
  (T.TSNTimeDomainNumber, .leaf .u8),
  (T.ClockDriftControlInformation, .descend .ClockDriftControlInformation [(T.TSNTimeDomainNumber, .TSNTimeDomainNumber)]),
  (T.ClockDriftReport, .descend .ClockDriftReport [(T.TSNTimeDomainNumber, .TSNTimeDomainNumber)])]⟩

/-- `IE.UEIPAddressPoolIdentity`, /repo/ie/ue-ip-address-pool-identity.go:24-57. -/
def dUEIPAddressPoolIdentity : AccDef := ⟨1, [
  (T.UEIPAddressPoolIdentity, .leaf .payload),
  (T.CreatePDR, .descend .CreatePDR [(T.UEIPAddressPoolIdentity, .UEIPAddressPoolIdentity)]),
  (T.UEIPAddressPoolInformation, .descend .UEIPAddressPoolInformation [(T.UEIPAddressPoolIdentity, .UEIPAddressPoolIdentity)])]⟩

/-- `IE.UEIPAddressPoolInformation`, /repo/ie/ue-ip-address-pool-information.go:13-19. -/
def dUEIPAddressPoolInformation : AccDef := ⟨0, [
  (T.UEIPAddressPoolInformation, .leaf .ies)]⟩

/-- `IE.UEIPAddressUsageInformation`, /repo/ie/ue-ip-address-usage-information.go:13-20. -/
def dUEIPAddressUsageInformation : AccDef := ⟨0, [
  (T.UEIPAddressUsageInformation, .leaf .ies)]⟩

/-- `IE.UEIPAddress`, /repo/ie/ue-ip-address.go:24-113. -/
def dUEIPAddress : AccDef := ⟨0, [
  (T.UEIPAddress, .leaf .ueIPAddress),
  (T.CreatePDR, .descend .CreatePDR [(T.PDI, .UEIPAddress)]),
  (T.PDI, .descend .PDI [(T.UEIPAddress, .UEIPAddress)]),
  (T.CreatedPDR, .descend .CreatedPDR [(T.UEIPAddress, .UEIPAddress)]),
  (T.UsageReportWithinSessionReportRequest, .descend .UsageReport [(T.UEIPAddress, .UEIPAddress)]),
  (T.CreateTrafficEndpoint, .descend .CreateTrafficEndpoint [(T.UEIPAddress, .UEIPAddress)]),
  (T.CreatedTrafficEndpoint, .descend .CreatedTrafficEndpoint [(T.UEIPAddress, .UEIPAddress)]),
  (T.UpdateTrafficEndpoint, .descend .UpdateTrafficEndpoint [(T.UEIPAddress, .UEIPAddress)])]⟩

/-- `IE.UELinkSpecificIPAddress`, /repo/ie/ue-link-specific-ip-address.go:25-59. -/
def dUELinkSpecificIPAddress : AccDef := ⟨0, [
  (T.UELinkSpecificIPAddress, .leaf .ueLinkSpecificIPAddress),
  (T.ATSSSControlParameters, .descend .ATSSSControlParameters [(T.MPTCPParameters, .UELinkSpecificIPAddress)]),
  (T.MPTCPParameters, .descend .MPTCPParameters [(T.UELinkSpecificIPAddress, .UELinkSpecificIPAddress)])]⟩

/-- `IE.UPFunctionFeatures`, /repo/ie/up-function-features.go:30-36. -/
def dUPFunctionFeatures : AccDef := ⟨0, [
  (T.UPFunctionFeatures, .leaf .payload)]⟩

/-- `IE.UpdateTGPPAccessForwardingActionInformation`, /repo/ie/update-3gpp-access-forwarding-action-information.go:13-31. -/
def dUpdateTGPPAccessForwardingActionInformation : AccDef := ⟨0, [
  (T.UpdateTGPPAccessForwardingActionInformation, .leaf .ies),
  (T.UpdateMAR, .descend .UpdateMAR [(T.UpdateTGPPAccessForwardingActionInformation, .UpdateTGPPAccessForwardingActionInformation)])]⟩

/-- `IE.UpdateBAR`, /repo/ie/update-bar.go:23-32. -/
def dUpdateBAR : AccDef := ⟨0, [
  (T.UpdateBARWithinSessionModificationRequest, .leaf .ies),
  (T.UpdateBARWithinSessionReportResponse, .leaf .ies)]⟩

/-- `IE.UpdateDuplicatingParameters`, /repo/ie/update-duplicating-parameters.go:13-31. -/
def dUpdateDuplicatingParameters : AccDef := ⟨0, [
  (T.UpdateDuplicatingParameters, .leaf .ies),
  (T.UpdateFAR, .descend .UpdateFAR [(T.UpdateDuplicatingParameters, .UpdateDuplicatingParameters)])]⟩

/-- `IE.UpdateFAR`, /repo/ie/update-far.go:13-19. -/
def dUpdateFAR : AccDef := ⟨0, [
  (T.UpdateFAR, .leaf .ies)]⟩

/-- `IE.UpdateForwardingParameters`, /repo/ie/update-forwarding-parameters.go:13-31. -/
def dUpdateForwardingParameters : AccDef := ⟨0, [
  (T.UpdateForwardingParameters, .leaf .ies),
  (T.UpdateFAR, .descend .UpdateFAR [(T.UpdateForwardingParameters, .UpdateForwardingParameters)])]⟩

/-- `IE.UpdateMAR`, /repo/ie/update-mar.go:13-19. -/
def dUpdateMAR : AccDef := ⟨0, [
  (T.UpdateMAR, .leaf .ies)]⟩

/-- `IE.UpdateNonTGPPAccessForwardingActionInformation`, /repo/ie/update-non-3gpp-access-forwarding-action-information.go:13-31. -/
def dUpdateNonTGPPAccessForwardingActionInformation : AccDef := ⟨0, [
  (T.UpdateNonTGPPAccessForwardingActionInformation, .leaf .ies),
  (T.UpdateMAR, .descend .UpdateMAR [(T.UpdateNonTGPPAccessForwardingActionInformation, .UpdateNonTGPPAccessForwardingActionInformation)])]⟩

/-- `IE.UpdatePDR`, /repo/ie/update-pdr.go:13-19. -/
def dUpdatePDR : AccDef := ⟨0, [
  (T.UpdatePDR, .leaf .ies)]⟩

/-- `IE.UpdateQER`, /repo/ie/update-qer.go:13-19. -/
def dUpdateQER : AccDef := ⟨0, [
  (T.UpdateQER, .leaf .ies)]⟩

/-- `IE.UpdateSRR`, /repo/ie/update-srr.go:13-20. -/
def dUpdateSRR : AccDef := ⟨0, [
  (T.UpdateSRR, .leaf .ies)]⟩

/-- `IE.UpdateTrafficEndpoint`, /repo/ie/update-traffic-endpoint.go:13-19. -/
def dUpdateTrafficEndpoint : AccDef := ⟨0, [
  (T.UpdateTrafficEndpoint, .leaf .ies)]⟩

/-- `IE.UpdateURR`, /repo/ie/update-urr.go:14-20. -/
def dUpdateURR : AccDef := ⟨0, [
  (T.UpdateURR, .leaf .ies)]⟩

/-- `IE.UpdatedPDR`, /repo/ie/updated-pdr.go:13-19. -/
def dUpdatedPDR : AccDef := ⟨0, [
  (T.UpdatedPDR, .leaf .ies)]⟩

/-- `IE.URSEQN`, /repo/ie/ur-seqn.go:13-33. -/
def dURSEQN : AccDef := ⟨0, [
  (T.URSEQN, .leaf .u32),
  (T.UsageReportWithinSessionModificationResponse, .descend .UsageReport [(T.URSEQN, .URSEQN)]),
  (T.UsageReportWithinSessionDeletionResponse, .descend .UsageReport [(T.URSEQN, .URSEQN)]),
  (T.UsageReportWithinSessionReportRequest, .descend .UsageReport [(T.URSEQN, .URSEQN)])]⟩

/-- `IE.URRID`, /repo/ie/urr-id.go:13-167. -/
def dURRID : AccDef := ⟨0, [
  (T.URRID, .leaf .u32),
  (T.CreatePDR, .descend .CreatePDR [(T.URRID, .URRID)]),
  (T.CreateURR, .descend .CreateURR [(T.URRID, .URRID)]),
  (T.UpdateURR, .descend .UpdateURR [(T.URRID, .URRID)]),
  (T.UpdatePDR, .descend .UpdatePDR [(T.URRID, .URRID)]),
  (T.RemoveURR, .descend .RemoveURR [(T.URRID, .URRID)]),
  (T.UsageReportWithinSessionModificationResponse, .descend .UsageReport [(T.URRID, .URRID)]),
  (T.UsageReportWithinSessionDeletionResponse, .descend .UsageReport [(T.URRID, .URRID)]),
  (T.UsageReportWithinSessionReportRequest, .descend .UsageReport [(T.URRID, .URRID)]),
  (T.CreateMAR, .descend .CreateMAR [(T.TGPPAccessForwardingActionInformation, .URRID), (T.NonTGPPAccessForwardingActionInformation, .URRID)]),
  (T.UpdateMAR, .descend .UpdateMAR [(T.TGPPAccessForwardingActionInformation, .URRID), (T.NonTGPPAccessForwardingActionInformation, .URRID)]),
  (T.QueryURR, .descend .QueryURR [(T.URRID, .URRID)]),
  (T.TGPPAccessForwardingActionInformation, .descend .TGPPAccessForwardingActionInformation [(T.URRID, .URRID)]),
  (T.NonTGPPAccessForwardingActionInformation, .descend .NonTGPPAccessForwardingActionInformation [(T.URRID, .URRID)]),
  (T.UpdateTGPPAccessForwardingActionInformation, .descend .UpdateTGPPAccessForwardingActionInformation [(T.URRID, .URRID)]),
  (T.UpdateNonTGPPAccessForwardingActionInformation, .descend .UpdateNonTGPPAccessForwardingActionInformation [(T.URRID, .URRID)])]⟩

/-- `IE.UsageInformation`, /repo/ie/usage-information.go:13-33. -/
def dUsageInformation : AccDef := ⟨0, [
  (T.UsageInformation, .leaf .u8),
  (T.UsageReportWithinSessionModificationResponse, .descend .UsageReport [(T.UsageInformation, .UsageInformation)]),
  (T.UsageReportWithinSessionDeletionResponse, .descend .UsageReport [(T.UsageInformation, .UsageInformation)]),
  (T.UsageReportWithinSessionReportRequest, .descend .UsageReport [(T.UsageInformation, .UsageInformation)])]⟩

/-- `IE.UsageReportTrigger`, /repo/ie/usage-report-trigger.go:17-41. -/
def dUsageReportTrigger : AccDef := ⟨2, [
  (T.UsageReportTrigger, .leaf .payload),
  (T.UsageReportWithinSessionModificationResponse, .descend .UsageReport [(T.UsageReportTrigger, .UsageReportTrigger)]),
  (T.UsageReportWithinSessionDeletionResponse, .descend .UsageReport [(T.UsageReportTrigger, .UsageReportTrigger)]),
  (T.UsageReportWithinSessionReportRequest, .descend .UsageReport [(T.UsageReportTrigger, .UsageReportTrigger)])]⟩

/-- `IE.UsageReport`, /repo/ie/usage-report.go:28-38. -/
def dUsageReport : AccDef := ⟨0, [
  (T.UsageReportWithinSessionModificationResponse, .leaf .ies),
  (T.UsageReportWithinSessionDeletionResponse, .leaf .ies),
  (T.UsageReportWithinSessionReportRequest, .leaf .ies)]⟩

/-- `IE.UserID`, /repo/ie/user-id.go:26-36. -/
def dUserID : AccDef := ⟨0, [
  (T.UserID, .leaf .userID)]⟩

/-- `IE.UserPlaneInactivityTimer`, /repo/ie/user-plane-inactivity-timer.go:21-30. -/
def dUserPlaneInactivityTimer : AccDef := ⟨0, [
  (T.UserPlaneInactivityTimer, .leaf .sec32Min)]⟩

/-- `IE.UserPlaneIPResourceInformation`, /repo/ie/user-plane-ip-resource-information.go:25-35. -/
def dUserPlaneIPResourceInformation : AccDef := ⟨0, [
  (T.UserPlaneIPResourceInformation, .leaf .userPlaneIPResourceInformation)]⟩

/-- `IE.UserPlanePathFailureReport`, /repo/ie/user-plane-path-failure-report.go:13-19. -/
def dUserPlanePathFailureReport : AccDef := ⟨0, [
  (T.UserPlanePathFailureReport, .leaf .ies)]⟩

/-- `IE.UserPlanePathRecoveryReport`, /repo/ie/user-plane-path-recovery-report.go:13-19. -/
def dUserPlanePathRecoveryReport : AccDef := ⟨0, [
  (T.UserPlanePathRecoveryReport, .leaf .ies)]⟩

/-- `IE.ValidityTimer`, /repo/ie/validity-timer.go:21-43. -/
def dValidityTimer : AccDef := ⟨2, [
  (T.ValidityTimer, .leaf .sec16),
  (T.UEIPAddressUsageInformation, .descend .UEIPAddressUsageInformation [(T.ValidityTimer, .ValidityTimer)])]⟩

/-- `IE.VolumeMeasurement`, /repo/ie/volume-measurement.go:25-50. -/
def dVolumeMeasurement : AccDef := ⟨0, [
  (T.VolumeMeasurement, .leaf .volumeMeasurement),
  (T.UsageReportWithinSessionModificationResponse, .descend .UsageReport [(T.VolumeMeasurement, .VolumeMeasurement)]),
  (T.UsageReportWithinSessionDeletionResponse, .descend .UsageReport [(T.VolumeMeasurement, .VolumeMeasurement)]),
  (T.UsageReportWithinSessionReportRequest, .descend .UsageReport [(T.VolumeMeasurement, .VolumeMeasurement)])]⟩

/-- `IE.VolumeQuota`, /repo/ie/volume-quota.go:25-59. -/
def dVolumeQuota : AccDef := ⟨0, [
  (T.VolumeQuota, .leaf .volume),
  (T.CreateURR, .descend .CreateURR [(T.VolumeQuota, .VolumeQuota)]),
  (T.UpdateURR, .descend .UpdateURR [(T.VolumeQuota, .VolumeQuota)])]⟩

/-- `IE.VolumeThreshold`, /repo/ie/volume-threshold.go:25-59. -/
def dVolumeThreshold : AccDef := ⟨0, [
  (T.VolumeThreshold, .leaf .volume),
  (T.CreateURR, .descend .CreateURR [(T.VolumeThreshold, .VolumeThreshold)]),
  (T.UpdateURR, .descend .UpdateURR [(T.VolumeThreshold, .VolumeThreshold)])]⟩

/-- `IE.Weight`, /repo/ie/weight.go:13-88. -/
def dWeight : AccDef := ⟨0, [
  (T.Weight, .leaf .u8),
  (T.CreateMAR, .descend .CreateMAR [(T.TGPPAccessForwardingActionInformation, .Weight), (T.NonTGPPAccessForwardingActionInformation, .Weight)]),
  (T.UpdateMAR, .descend .UpdateMAR [(T.TGPPAccessForwardingActionInformation, .Weight), (T.NonTGPPAccessForwardingActionInformation, .Weight)]),
  (T.TGPPAccessForwardingActionInformation, .descend .TGPPAccessForwardingActionInformation [(T.Weight, .Weight)]),
  (T.NonTGPPAccessForwardingActionInformation, .descend .NonTGPPAccessForwardingActionInformation [(T.Weight, .Weight)]),
  (T.UpdateTGPPAccessForwardingActionInformation, .descend .UpdateTGPPAccessForwardingActionInformation [(T.Weight, .Weight)]),
  (T.UpdateNonTGPPAccessForwardingActionInformation, .descend .UpdateNonTGPPAccessForwardingActionInformation [(T.Weight, .Weight)])]⟩

/-- The table. -/
def table : Acc → AccDef
  | .AccessAvailabilityControlInformation => dAccessAvailabilityControlInformation
  | .AccessAvailabilityInformation => dAccessAvailabilityInformation
  | .AccessAvailabilityReport => dAccessAvailabilityReport
  | .ActivatePredefinedRules => dActivatePredefinedRules
  | .ActivationTime => dActivationTime
  | .AdditionalMonitoringTime => dAdditionalMonitoringTime
  | .AdditionalUsageReportsInformation => dAdditionalUsageReportsInformation
  | .AggregatedURRID => dAggregatedURRID
  | .AggregatedURRs => dAggregatedURRs
  | .AlternativeSMFIPAddress => dAlternativeSMFIPAddress
  | .APNDNN => dAPNDNN
  | .ApplicationDetectionInformation => dApplicationDetectionInformation
  | .ApplicationID => dApplicationID
  | .ApplicationIDsPFDs => dApplicationIDsPFDs
  | .ApplicationInstanceID => dApplicationInstanceID
  | .ApplyAction => dApplyAction
  | .ATSSSControlParameters => dATSSSControlParameters
  | .ATSSSLLControlInformation => dATSSSLLControlInformation
  | .ATSSSLLInformation => dATSSSLLInformation
  | .ATSSSLLParameters => dATSSSLLParameters
  | .AveragePacketDelay => dAveragePacketDelay
  | .AveragingWindow => dAveragingWindow
  | .BARID => dBARID
  | .BridgeManagementInformationContainer => dBridgeManagementInformationContainer
  | .CTAG => dCTAG
  | .Cause => dCause
  | .ClockDriftControlInformation => dClockDriftControlInformation
  | .ClockDriftReport => dClockDriftReport
  | .CPFunctionFeatures => dCPFunctionFeatures
  | .CPPFCPEntityIPAddress => dCPPFCPEntityIPAddress
  | .CreateBAR => dCreateBAR
  | .CreateBridgeInfoForTSC => dCreateBridgeInfoForTSC
  | .CreateFAR => dCreateFAR
  | .CreateMAR => dCreateMAR
  | .CreatePDR => dCreatePDR
  | .CreateQER => dCreateQER
  | .CreateSRR => dCreateSRR
  | .CreateTrafficEndpoint => dCreateTrafficEndpoint
  | .CreateURR => dCreateURR
  | .CreatedBridgeInfoForTSC => dCreatedBridgeInfoForTSC
  | .CreatedPDR => dCreatedPDR
  | .CreatedTrafficEndpoint => dCreatedTrafficEndpoint
  | .LocalFTEID => dLocalFTEID
  | .CumulativeRateRatioMeasurement => dCumulativeRateRatioMeasurement
  | .CumulativeRateRatioThreshold => dCumulativeRateRatioThreshold
  | .DataNetworkAccessIdentifier => dDataNetworkAccessIdentifier
  | .DataStatus => dDataStatus
  | .DeactivatePredefinedRules => dDeactivatePredefinedRules
  | .DeactivationTime => dDeactivationTime
  | .DestinationInterface => dDestinationInterface
  | .DLBufferingDuration => dDLBufferingDuration
  | .DLBufferingSuggestedPacketCount => dDLBufferingSuggestedPacketCount
  | .DLDataPacketsSize => dDLDataPacketsSize
  | .DLFlowLevelMarking => dDLFlowLevelMarking
  | .DownlinkDataNotificationDelay => dDownlinkDataNotificationDelay
  | .DownlinkDataReport => dDownlinkDataReport
  | .DownlinkDataServiceInformation => dDownlinkDataServiceInformation
  | .PPI => dPPI
  | .DroppedDLTrafficThreshold => dDroppedDLTrafficThreshold
  | .DSTTPortNumber => dDSTTPortNumber
  | .DuplicatingParameters => dDuplicatingParameters
  | .DurationMeasurement => dDurationMeasurement
  | .EndTime => dEndTime
  | .ErrorIndicationReport => dErrorIndicationReport
  | .EthernetContextInformation => dEthernetContextInformation
  | .EthernetFilterID => dEthernetFilterID
  | .EthernetFilterProperties => dEthernetFilterProperties
  | .EthernetInactivityTimer => dEthernetInactivityTimer
  | .EthernetPacketFilter => dEthernetPacketFilter
  | .EthernetPDUSessionInformation => dEthernetPDUSessionInformation
  | .EthernetTrafficInformation => dEthernetTrafficInformation
  | .Ethertype => dEthertype
  | .EventQuota => dEventQuota
  | .EventThreshold => dEventThreshold
  | .EventTimeStamp => dEventTimeStamp
  | .FSEID => dFSEID
  | .FTEID => dFTEID
  | .RuleIDType => dRuleIDType
  | .FailedRuleID => dFailedRuleID
  | .FARID => dFARID
  | .FlowInformation => dFlowInformation
  | .FlowDirection => dFlowDirection
  | .FlowDescription => dFlowDescription
  | .ForwardingParameters => dForwardingParameters
  | .ForwardingPolicy => dForwardingPolicy
  | .FQCSID => dFQCSID
  | .NodeIDType => dNodeIDType
  | .NodeAddress => dNodeAddress
  | .CSIDs => dCSIDs
  | .FramedIPv6Route => dFramedIPv6Route
  | .FramedRoute => dFramedRoute
  | .FramedRouting => dFramedRouting
  | .GateStatus => dGateStatus
  | .GBR => dGBR
  | .GracefulReleasePeriod => dGracefulReleasePeriod
  | .GTPUPathInterfaceType => dGTPUPathInterfaceType
  | .GTPUPathQoSControlInformation => dGTPUPathQoSControlInformation
  | .GTPUPathQoSReport => dGTPUPathQoSReport
  | .HeaderEnrichment => dHeaderEnrichment
  | .InactivityDetectionTime => dInactivityDetectionTime
  | .IPMulticastAddress => dIPMulticastAddress
  | .IPMulticastAddressingInfo => dIPMulticastAddressingInfo
  | .IPVersion => dIPVersion
  | .JoinIPMulticastInformationWithinUsageReport => dJoinIPMulticastInformationWithinUsageReport
  | .LeaveIPMulticastInformationWithinUsageReport => dLeaveIPMulticastInformationWithinUsageReport
  | .LinkedURRID => dLinkedURRID
  | .LoadControlInformation => dLoadControlInformation
  | .MACAddressesDetected => dMACAddressesDetected
  | .MACAddressesRemoved => dMACAddressesRemoved
  | .MACAddress => dMACAddress
  | .MARID => dMARID
  | .MaximumPacketDelay => dMaximumPacketDelay
  | .MBR => dMBR
  | .MeasurementInformation => dMeasurementInformation
  | .MeasurementMethod => dMeasurementMethod
  | .MeasurementPeriod => dMeasurementPeriod
  | .Metric => dMetric
  | .MinimumPacketDelay => dMinimumPacketDelay
  | .MinimumWaitTime => dMinimumWaitTime
  | .MonitoringTime => dMonitoringTime
  | .MPTCPAddressInformation => dMPTCPAddressInformation
  | .MPTCPApplicableIndication => dMPTCPApplicableIndication
  | .MPTCPControlInformation => dMPTCPControlInformation
  | .MPTCPParameters => dMPTCPParameters
  | .MTEDTControlInformation => dMTEDTControlInformation
  | .Multiplier => dMultiplier
  | .ValueDigits => dValueDigits
  | .Exponent => dExponent
  | .NetworkInstance => dNetworkInstance
  | .NFInstanceID => dNFInstanceID
  | .NodeID => dNodeID
  | .NodeReportType => dNodeReportType
  | .NonTGPPAccessForwardingActionInformation => dNonTGPPAccessForwardingActionInformation
  | .NumberOfReports => dNumberOfReports
  | .NumberOfUEIPAddresses => dNumberOfUEIPAddresses
  | .NWTTPortNumber => dNWTTPortNumber
  | .OCIFlags => dOCIFlags
  | .OffendingIE => dOffendingIE
  | .OuterHeaderCreation => dOuterHeaderCreation
  | .OuterHeaderRemoval => dOuterHeaderRemoval
  | .OverloadControlInformation => dOverloadControlInformation
  | .PacketDelayThresholds => dPacketDelayThresholds
  | .PacketRateStatusReport => dPacketRateStatusReport
  | .PacketRateStatus => dPacketRateStatus
  | .PacketRate => dPacketRate
  | .PacketReplicationAndDetectionCarryOnInformation => dPacketReplicationAndDetectionCarryOnInformation
  | .PagingPolicyIndicator => dPagingPolicyIndicator
  | .PDI => dPDI
  | .PDNType => dPDNType
  | .PDRID => dPDRID
  | .PFCPAssociationReleaseRequest => dPFCPAssociationReleaseRequest
  | .PFCPSessionRetentionInformation => dPFCPSessionRetentionInformation
  | .PFCPASReqFlags => dPFCPASReqFlags
  | .PFCPASRspFlags => dPFCPASRspFlags
  | .PFCPAUReqFlags => dPFCPAUReqFlags
  | .PFCPSEReqFlags => dPFCPSEReqFlags
  | .PFCPSMReqFlags => dPFCPSMReqFlags
  | .PFCPSRReqFlags => dPFCPSRReqFlags
  | .PFCPSRRspFlags => dPFCPSRRspFlags
  | .PFDContents => dPFDContents
  | .PFDContext => dPFDContext
  | .PMFAddressInformation => dPMFAddressInformation
  | .PMFControlInformation => dPMFControlInformation
  | .PMFParameters => dPMFParameters
  | .PortManagementInformationContainer => dPortManagementInformationContainer
  | .Precedence => dPrecedence
  | .Priority => dPriority
  | .ProvideATSSSControlInformation => dProvideATSSSControlInformation
  | .ProvideRDSConfigurationInformation => dProvideRDSConfigurationInformation
  | .Proxying => dProxying
  | .QERControlIndications => dQERControlIndications
  | .QERCorrelationID => dQERCorrelationID
  | .QERID => dQERID
  | .QFI => dQFI
  | .QoSInformationInGTPUPathQoSReport => dQoSInformationInGTPUPathQoSReport
  | .QoSMonitoringMeasurement => dQoSMonitoringMeasurement
  | .QoSMonitoringPerQoSFlowControlInformation => dQoSMonitoringPerQoSFlowControlInformation
  | .QoSMonitoringReport => dQoSMonitoringReport
  | .QoSReportTrigger => dQoSReportTrigger
  | .QueryPacketRateStatus => dQueryPacketRateStatus
  | .QueryURRReference => dQueryURRReference
  | .QueryURR => dQueryURR
  | .QuotaHoldingTime => dQuotaHoldingTime
  | .QuotaValidityTime => dQuotaValidityTime
  | .RDSConfigurationInformation => dRDSConfigurationInformation
  | .RecoveryTimeStamp => dRecoveryTimeStamp
  | .RedirectInformation => dRedirectInformation
  | .RedundantTransmissionForwardingParameters => dRedundantTransmissionForwardingParameters
  | .RedundantTransmissionParameters => dRedundantTransmissionParameters
  | .RemoteGTPUPeer => dRemoteGTPUPeer
  | .RemoveBAR => dRemoveBAR
  | .RemoveFAR => dRemoveFAR
  | .RemoveMAR => dRemoveMAR
  | .RemovePDR => dRemovePDR
  | .RemoveQER => dRemoveQER
  | .RemoveSRR => dRemoveSRR
  | .RemoveTrafficEndpoint => dRemoveTrafficEndpoint
  | .RemoveURR => dRemoveURR
  | .ReportType => dReportType
  | .ReportingFrequency => dReportingFrequency
  | .ReportingTriggers => dReportingTriggers
  | .RequestedAccessAvailabilityInformation => dRequestedAccessAvailabilityInformation
  | .RequestedClockDriftInformation => dRequestedClockDriftInformation
  | .RequestedQoSMonitoring => dRequestedQoSMonitoring
  | .RQI => dRQI
  | .SNSSAI => dSNSSAI
  | .STAG => dSTAG
  | .SDFFilter => dSDFFilter
  | .SequenceNumber => dSequenceNumber
  | .SessionReport => dSessionReport
  | .SMFSetID => dSMFSetID
  | .SourceInterface => dSourceInterface
  | .SourceIPAddress => dSourceIPAddress
  | .SRRID => dSRRID
  | .StartTime => dStartTime
  | .SteeringFunctionality => dSteeringFunctionality
  | .SteeringMode => dSteeringMode
  | .SubsequentEventQuota => dSubsequentEventQuota
  | .SubsequentEventThreshold => dSubsequentEventThreshold
  | .SubsequentTimeQuota => dSubsequentTimeQuota
  | .SubsequentTimeThreshold => dSubsequentTimeThreshold
  | .SubsequentVolumeQuota => dSubsequentVolumeQuota
  | .SubsequentVolumeThreshold => dSubsequentVolumeThreshold
  | .SuggestedBufferingPacketsCount => dSuggestedBufferingPacketsCount
  | .TGPPAccessForwardingActionInformation => dTGPPAccessForwardingActionInformation
  | .TGPPInterfaceType => dTGPPInterfaceType
  | .TimeOfFirstPacket => dTimeOfFirstPacket
  | .TimeOfLastPacket => dTimeOfLastPacket
  | .TimeOffsetMeasurement => dTimeOffsetMeasurement
  | .TimeOffsetThreshold => dTimeOffsetThreshold
  | .TimeQuotaMechanism => dTimeQuotaMechanism
  | .TimeQuota => dTimeQuota
  | .TimeThreshold => dTimeThreshold
  | .Timer => dTimer
  | .TraceInformation => dTraceInformation
  | .TrafficEndpointID => dTrafficEndpointID
  | .TransportDelayReporting => dTransportDelayReporting
  | .TransportLevelMarking => dTransportLevelMarking
  | .TSCManagementInformation => dTSCManagementInformation
  | .PortManagementInformationForTSC => dPortManagementInformationForTSC
  | .TSNBridgeID => dTSNBridgeID
  | .TSNTimeDomainNumber => dTSNTimeDomainNumber
  | .UEIPAddressPoolIdentity => dUEIPAddressPoolIdentity
  | .UEIPAddressPoolInformation => dUEIPAddressPoolInformation
  | .UEIPAddressUsageInformation => dUEIPAddressUsageInformation
  | .UEIPAddress => dUEIPAddress
  | .UELinkSpecificIPAddress => dUELinkSpecificIPAddress
  | .UPFunctionFeatures => dUPFunctionFeatures
  | .UpdateTGPPAccessForwardingActionInformation => dUpdateTGPPAccessForwardingActionInformation
  | .UpdateBAR => dUpdateBAR
  | .UpdateDuplicatingParameters => dUpdateDuplicatingParameters
  | .UpdateFAR => dUpdateFAR
  | .UpdateForwardingParameters => dUpdateForwardingParameters
  | .UpdateMAR => dUpdateMAR
  | .UpdateNonTGPPAccessForwardingActionInformation => dUpdateNonTGPPAccessForwardingActionInformation
  | .UpdatePDR => dUpdatePDR
  | .UpdateQER => dUpdateQER
  | .UpdateSRR => dUpdateSRR
  | .UpdateTrafficEndpoint => dUpdateTrafficEndpoint
  | .UpdateURR => dUpdateURR
  | .UpdatedPDR => dUpdatedPDR
  | .URSEQN => dURSEQN
  | .URRID => dURRID
  | .UsageInformation => dUsageInformation
  | .UsageReportTrigger => dUsageReportTrigger
  | .UsageReport => dUsageReport
  | .UserID => dUserID
  | .UserPlaneInactivityTimer => dUserPlaneInactivityTimer
  | .UserPlaneIPResourceInformation => dUserPlaneIPResourceInformation
  | .UserPlanePathFailureReport => dUserPlanePathFailureReport
  | .UserPlanePathRecoveryReport => dUserPlanePathRecoveryReport
  | .ValidityTimer => dValidityTimer
  | .VolumeMeasurement => dVolumeMeasurement
  | .VolumeQuota => dVolumeQuota
  | .VolumeThreshold => dVolumeThreshold
  | .Weight => dWeight

/-- The Go name of the accessor. -/
def name : Acc → String
  | .AccessAvailabilityControlInformation => "AccessAvailabilityControlInformation"
  | .AccessAvailabilityInformation => "AccessAvailabilityInformation"
  | .AccessAvailabilityReport => "AccessAvailabilityReport"
  | .ActivatePredefinedRules => "ActivatePredefinedRules"
  | .ActivationTime => "ActivationTime"
  | .AdditionalMonitoringTime => "AdditionalMonitoringTime"
  | .AdditionalUsageReportsInformation => "AdditionalUsageReportsInformation"
  | .AggregatedURRID => "AggregatedURRID"
  | .AggregatedURRs => "AggregatedURRs"
  | .AlternativeSMFIPAddress => "AlternativeSMFIPAddress"
  | .APNDNN => "APNDNN"
  | .ApplicationDetectionInformation => "ApplicationDetectionInformation"
  | .ApplicationID => "ApplicationID"
  | .ApplicationIDsPFDs => "ApplicationIDsPFDs"
  | .ApplicationInstanceID => "ApplicationInstanceID"
  | .ApplyAction => "ApplyAction"
  | .ATSSSControlParameters => "ATSSSControlParameters"
  | .ATSSSLLControlInformation => "ATSSSLLControlInformation"
  | .ATSSSLLInformation => "ATSSSLLInformation"
  | .ATSSSLLParameters => "ATSSSLLParameters"
  | .AveragePacketDelay => "AveragePacketDelay"
  | .AveragingWindow => "AveragingWindow"
  | .BARID => "BARID"
  | .BridgeManagementInformationContainer => "BridgeManagementInformationContainer"
  | .CTAG => "CTAG"
  | .Cause => "Cause"
  | .ClockDriftControlInformation => "ClockDriftControlInformation"
  | .ClockDriftReport => "ClockDriftReport"
  | .CPFunctionFeatures => "CPFunctionFeatures"
  | .CPPFCPEntityIPAddress => "CPPFCPEntityIPAddress"
  | .CreateBAR => "CreateBAR"
  | .CreateBridgeInfoForTSC => "CreateBridgeInfoForTSC"
  | .CreateFAR => "CreateFAR"
  | .CreateMAR => "CreateMAR"
  | .CreatePDR => "CreatePDR"
  | .CreateQER => "CreateQER"
  | .CreateSRR => "CreateSRR"
  | .CreateTrafficEndpoint => "CreateTrafficEndpoint"
  | .CreateURR => "CreateURR"
  | .CreatedBridgeInfoForTSC => "CreatedBridgeInfoForTSC"
  | .CreatedPDR => "CreatedPDR"
  | .CreatedTrafficEndpoint => "CreatedTrafficEndpoint"
  | .LocalFTEID => "LocalFTEID"
  | .CumulativeRateRatioMeasurement => "CumulativeRateRatioMeasurement"
  | .CumulativeRateRatioThreshold => "CumulativeRateRatioThreshold"
  | .DataNetworkAccessIdentifier => "DataNetworkAccessIdentifier"
  | .DataStatus => "DataStatus"
  | .DeactivatePredefinedRules => "DeactivatePredefinedRules"
  | .DeactivationTime => "DeactivationTime"
  | .DestinationInterface => "DestinationInterface"
  | .DLBufferingDuration => "DLBufferingDuration"
  | .DLBufferingSuggestedPacketCount => "DLBufferingSuggestedPacketCount"
  | .DLDataPacketsSize => "DLDataPacketsSize"
  | .DLFlowLevelMarking => "DLFlowLevelMarking"
  | .DownlinkDataNotificationDelay => "DownlinkDataNotificationDelay"
  | .DownlinkDataReport => "DownlinkDataReport"
  | .DownlinkDataServiceInformation => "DownlinkDataServiceInformation"
  | .PPI => "PPI"
  | .DroppedDLTrafficThreshold => "DroppedDLTrafficThreshold"
  | .DSTTPortNumber => "DSTTPortNumber"
  | .DuplicatingParameters => "DuplicatingParameters"
  | .DurationMeasurement => "DurationMeasurement"
  | .EndTime => "EndTime"
  | .ErrorIndicationReport => "ErrorIndicationReport"
  | .EthernetContextInformation => "EthernetContextInformation"
  | .EthernetFilterID => "EthernetFilterID"
  | .EthernetFilterProperties => "EthernetFilterProperties"
  | .EthernetInactivityTimer => "EthernetInactivityTimer"
  | .EthernetPacketFilter => "EthernetPacketFilter"
  | .EthernetPDUSessionInformation => "EthernetPDUSessionInformation"
  | .EthernetTrafficInformation => "EthernetTrafficInformation"
  | .Ethertype => "Ethertype"
  | .EventQuota => "EventQuota"
  | .EventThreshold => "EventThreshold"
  | .EventTimeStamp => "EventTimeStamp"
  | .FSEID => "FSEID"
  | .FTEID => "FTEID"
  | .RuleIDType => "RuleIDType"
  | .FailedRuleID => "FailedRuleID"
  | .FARID => "FARID"
  | .FlowInformation => "FlowInformation"
  | .FlowDirection => "FlowDirection"
  | .FlowDescription => "FlowDescription"
  | .ForwardingParameters => "ForwardingParameters"
  | .ForwardingPolicy => "ForwardingPolicy"
  | .FQCSID => "FQCSID"
  | .NodeIDType => "NodeIDType"
  | .NodeAddress => "NodeAddress"
  | .CSIDs => "CSIDs"
  | .FramedIPv6Route => "FramedIPv6Route"
  | .FramedRoute => "FramedRoute"
  | .FramedRouting => "FramedRouting"
  | .GateStatus => "GateStatus"
  | .GBR => "GBR"
  | .GracefulReleasePeriod => "GracefulReleasePeriod"
  | .GTPUPathInterfaceType => "GTPUPathInterfaceType"
  | .GTPUPathQoSControlInformation => "GTPUPathQoSControlInformation"
  | .GTPUPathQoSReport => "GTPUPathQoSReport"
  | .HeaderEnrichment => "HeaderEnrichment"
  | .InactivityDetectionTime => "InactivityDetectionTime"
  | .IPMulticastAddress => "IPMulticastAddress"
  | .IPMulticastAddressingInfo => "IPMulticastAddressingInfo"
  | .IPVersion => "IPVersion"
  | .JoinIPMulticastInformationWithinUsageReport => "JoinIPMulticastInformationWithinUsageReport"
  | .LeaveIPMulticastInformationWithinUsageReport => "LeaveIPMulticastInformationWithinUsageReport"
  | .LinkedURRID => "LinkedURRID"
  | .LoadControlInformation => "LoadControlInformation"
  | .MACAddressesDetected => "MACAddressesDetected"
  | .MACAddressesRemoved => "MACAddressesRemoved"
  | .MACAddress => "MACAddress"
  | .MARID => "MARID"
  | .MaximumPacketDelay => "MaximumPacketDelay"
  | .MBR => "MBR"
  | .MeasurementInformation => "MeasurementInformation"
  | .MeasurementMethod => "MeasurementMethod"
  | .MeasurementPeriod => "MeasurementPeriod"
  | .Metric => "Metric"
  | .MinimumPacketDelay => "MinimumPacketDelay"
  | .MinimumWaitTime => "MinimumWaitTime"
  | .MonitoringTime => "MonitoringTime"
  | .MPTCPAddressInformation => "MPTCPAddressInformation"
  | .MPTCPApplicableIndication => "MPTCPApplicableIndication"
  | .MPTCPControlInformation => "MPTCPControlInformation"
  | .MPTCPParameters => "MPTCPParameters"
  | .MTEDTControlInformation => "MTEDTControlInformation"
  | .Multiplier => "Multiplier"
  | .ValueDigits => "ValueDigits"
  | .Exponent => "Exponent"
  | .NetworkInstance => "NetworkInstance"
  | .NFInstanceID => "NFInstanceID"
  | .NodeID => "NodeID"
  | .NodeReportType => "NodeReportType"
  | .NonTGPPAccessForwardingActionInformation => "NonTGPPAccessForwardingActionInformation"
  | .NumberOfReports => "NumberOfReports"
  | .NumberOfUEIPAddresses => "NumberOfUEIPAddresses"
  | .NWTTPortNumber => "NWTTPortNumber"
  | .OCIFlags => "OCIFlags"
  | .OffendingIE => "OffendingIE"
  | .OuterHeaderCreation => "OuterHeaderCreation"
  | .OuterHeaderRemoval => "OuterHeaderRemoval"
  | .OverloadControlInformation => "OverloadControlInformation"
  | .PacketDelayThresholds => "PacketDelayThresholds"
  | .PacketRateStatusReport => "PacketRateStatusReport"
  | .PacketRateStatus => "PacketRateStatus"
  | .PacketRate => "PacketRate"
  | .PacketReplicationAndDetectionCarryOnInformation => "PacketReplicationAndDetectionCarryOnInformation"
  | .PagingPolicyIndicator => "PagingPolicyIndicator"
  | .PDI => "PDI"
  | .PDNType => "PDNType"
  | .PDRID => "PDRID"
  | .PFCPAssociationReleaseRequest => "PFCPAssociationReleaseRequest"
  | .PFCPSessionRetentionInformation => "PFCPSessionRetentionInformation"
  | .PFCPASReqFlags => "PFCPASReqFlags"
  | .PFCPASRspFlags => "PFCPASRspFlags"
  | .PFCPAUReqFlags => "PFCPAUReqFlags"
  | .PFCPSEReqFlags => "PFCPSEReqFlags"
  | .PFCPSMReqFlags => "PFCPSMReqFlags"
  | .PFCPSRReqFlags => "PFCPSRReqFlags"
  | .PFCPSRRspFlags => "PFCPSRRspFlags"
  | .PFDContents => "PFDContents"
  | .PFDContext => "PFDContext"
  | .PMFAddressInformation => "PMFAddressInformation"
  | .PMFControlInformation => "PMFControlInformation"
  | .PMFParameters => "PMFParameters"
  | .PortManagementInformationContainer => "PortManagementInformationContainer"
  | .Precedence => "Precedence"
  | .Priority => "Priority"
  | .ProvideATSSSControlInformation => "ProvideATSSSControlInformation"
  | .ProvideRDSConfigurationInformation => "ProvideRDSConfigurationInformation"
  | .Proxying => "Proxying"
  | .QERControlIndications => "QERControlIndications"
  | .QERCorrelationID => "QERCorrelationID"
  | .QERID => "QERID"
  | .QFI => "QFI"
  | .QoSInformationInGTPUPathQoSReport => "QoSInformationInGTPUPathQoSReport"
  | .QoSMonitoringMeasurement => "QoSMonitoringMeasurement"
  | .QoSMonitoringPerQoSFlowControlInformation => "QoSMonitoringPerQoSFlowControlInformation"
  | .QoSMonitoringReport => "QoSMonitoringReport"
  | .QoSReportTrigger => "QoSReportTrigger"
  | .QueryPacketRateStatus => "QueryPacketRateStatus"
  | .QueryURRReference => "QueryURRReference"
  | .QueryURR => "QueryURR"
  | .QuotaHoldingTime => "QuotaHoldingTime"
  | .QuotaValidityTime => "QuotaValidityTime"
  | .RDSConfigurationInformation => "RDSConfigurationInformation"
  | .RecoveryTimeStamp => "RecoveryTimeStamp"
  | .RedirectInformation => "RedirectInformation"
  | .RedundantTransmissionForwardingParameters => "RedundantTransmissionForwardingParameters"
  | .RedundantTransmissionParameters => "RedundantTransmissionParameters"
  | .RemoteGTPUPeer => "RemoteGTPUPeer"
  | .RemoveBAR => "RemoveBAR"
  | .RemoveFAR => "RemoveFAR"
  | .RemoveMAR => "RemoveMAR"
  | .RemovePDR => "RemovePDR"
  | .RemoveQER => "RemoveQER"
  | .RemoveSRR => "RemoveSRR"
  | .RemoveTrafficEndpoint => "RemoveTrafficEndpoint"
  | .RemoveURR => "RemoveURR"
  | .ReportType => "ReportType"
  | .ReportingFrequency => "ReportingFrequency"
  | .ReportingTriggers => "ReportingTriggers"
  | .RequestedAccessAvailabilityInformation => "RequestedAccessAvailabilityInformation"
  | .RequestedClockDriftInformation => "RequestedClockDriftInformation"
  | .RequestedQoSMonitoring => "RequestedQoSMonitoring"
  | .RQI => "RQI"
  | .SNSSAI => "SNSSAI"
  | .STAG => "STAG"
  | .SDFFilter => "SDFFilter"
  | .SequenceNumber => "SequenceNumber"
  | .SessionReport => "SessionReport"
  | .SMFSetID => "SMFSetID"
  | .SourceInterface => "SourceInterface"
  | .SourceIPAddress => "SourceIPAddress"
  | .SRRID => "SRRID"
  | .StartTime => "StartTime"
  | .SteeringFunctionality => "SteeringFunctionality"
  | .SteeringMode => "SteeringMode"
  | .SubsequentEventQuota => "SubsequentEventQuota"
  | .SubsequentEventThreshold => "SubsequentEventThreshold"
  | .SubsequentTimeQuota => "SubsequentTimeQuota"
  | .SubsequentTimeThreshold => "SubsequentTimeThreshold"
  | .SubsequentVolumeQuota => "SubsequentVolumeQuota"
  | .SubsequentVolumeThreshold => "SubsequentVolumeThreshold"
  | .SuggestedBufferingPacketsCount => "SuggestedBufferingPacketsCount"
  | .TGPPAccessForwardingActionInformation => "TGPPAccessForwardingActionInformation"
  | .TGPPInterfaceType => "TGPPInterfaceType"
  | .TimeOfFirstPacket => "TimeOfFirstPacket"
  | .TimeOfLastPacket => "TimeOfLastPacket"
  | .TimeOffsetMeasurement => "TimeOffsetMeasurement"
  | .TimeOffsetThreshold => "TimeOffsetThreshold"
  | .TimeQuotaMechanism => "TimeQuotaMechanism"
  | .TimeQuota => "TimeQuota"
  | .TimeThreshold => "TimeThreshold"
  | .Timer => "Timer"
  | .TraceInformation => "TraceInformation"
  | .TrafficEndpointID => "TrafficEndpointID"
  | .TransportDelayReporting => "TransportDelayReporting"
  | .TransportLevelMarking => "TransportLevelMarking"
  | .TSCManagementInformation => "TSCManagementInformation"
  | .PortManagementInformationForTSC => "PortManagementInformationForTSC"
  | .TSNBridgeID => "TSNBridgeID"
  | .TSNTimeDomainNumber => "TSNTimeDomainNumber"
  | .UEIPAddressPoolIdentity => "UEIPAddressPoolIdentity"
  | .UEIPAddressPoolInformation => "UEIPAddressPoolInformation"
  | .UEIPAddressUsageInformation => "UEIPAddressUsageInformation"
  | .UEIPAddress => "UEIPAddress"
  | .UELinkSpecificIPAddress => "UELinkSpecificIPAddress"
  | .UPFunctionFeatures => "UPFunctionFeatures"
  | .UpdateTGPPAccessForwardingActionInformation => "UpdateTGPPAccessForwardingActionInformation"
  | .UpdateBAR => "UpdateBAR"
  | .UpdateDuplicatingParameters => "UpdateDuplicatingParameters"
  | .UpdateFAR => "UpdateFAR"
  | .UpdateForwardingParameters => "UpdateForwardingParameters"
  | .UpdateMAR => "UpdateMAR"
  | .UpdateNonTGPPAccessForwardingActionInformation => "UpdateNonTGPPAccessForwardingActionInformation"
  | .UpdatePDR => "UpdatePDR"
  | .UpdateQER => "UpdateQER"
  | .UpdateSRR => "UpdateSRR"
  | .UpdateTrafficEndpoint => "UpdateTrafficEndpoint"
  | .UpdateURR => "UpdateURR"
  | .UpdatedPDR => "UpdatedPDR"
  | .URSEQN => "URSEQN"
  | .URRID => "URRID"
  | .UsageInformation => "UsageInformation"
  | .UsageReportTrigger => "UsageReportTrigger"
  | .UsageReport => "UsageReport"
  | .UserID => "UserID"
  | .UserPlaneInactivityTimer => "UserPlaneInactivityTimer"
  | .UserPlaneIPResourceInformation => "UserPlaneIPResourceInformation"
  | .UserPlanePathFailureReport => "UserPlanePathFailureReport"
  | .UserPlanePathRecoveryReport => "UserPlanePathRecoveryReport"
  | .ValidityTimer => "ValidityTimer"
  | .VolumeMeasurement => "VolumeMeasurement"
  | .VolumeQuota => "VolumeQuota"
  | .VolumeThreshold => "VolumeThreshold"
  | .Weight => "Weight"

/-- Every accessor. -/
def all : List Acc := [
  .AccessAvailabilityControlInformation, .AccessAvailabilityInformation, .AccessAvailabilityReport,
  .ActivatePredefinedRules, .ActivationTime, .AdditionalMonitoringTime, .AdditionalUsageReportsInformation,
  .AggregatedURRID, .AggregatedURRs, .AlternativeSMFIPAddress, .APNDNN, .ApplicationDetectionInformation,
  .ApplicationID, .ApplicationIDsPFDs, .ApplicationInstanceID, .ApplyAction, .ATSSSControlParameters,
  .ATSSSLLControlInformation, .ATSSSLLInformation, .ATSSSLLParameters, .AveragePacketDelay, .AveragingWindow,
  .BARID, .BridgeManagementInformationContainer, .CTAG, .Cause, .ClockDriftControlInformation, .ClockDriftReport,
  .CPFunctionFeatures, .CPPFCPEntityIPAddress, .CreateBAR, .CreateBridgeInfoForTSC, .CreateFAR, .CreateMAR,
  .CreatePDR, .CreateQER, .CreateSRR, .CreateTrafficEndpoint, .CreateURR, .CreatedBridgeInfoForTSC, .CreatedPDR,
  .CreatedTrafficEndpoint, .LocalFTEID, .CumulativeRateRatioMeasurement, .CumulativeRateRatioThreshold,
  .DataNetworkAccessIdentifier, .DataStatus, .DeactivatePredefinedRules, .DeactivationTime, .DestinationInterface,
  .DLBufferingDuration, .DLBufferingSuggestedPacketCount, .DLDataPacketsSize, .DLFlowLevelMarking,
  .DownlinkDataNotificationDelay, .DownlinkDataReport, .DownlinkDataServiceInformation, .PPI,
  .DroppedDLTrafficThreshold, .DSTTPortNumber, .DuplicatingParameters, .DurationMeasurement, .EndTime,
  .ErrorIndicationReport, .EthernetContextInformation, .EthernetFilterID, .EthernetFilterProperties,
  .EthernetInactivityTimer, .EthernetPacketFilter, .EthernetPDUSessionInformation, .EthernetTrafficInformation,
  .Ethertype, .EventQuota, .EventThreshold, .EventTimeStamp, .FSEID, .FTEID, .RuleIDType, .FailedRuleID, .FARID,
  .FlowInformation, .FlowDirection, .FlowDescription, .ForwardingParameters, .ForwardingPolicy, .FQCSID,
  .NodeIDType, .NodeAddress, .CSIDs, .FramedIPv6Route, .FramedRoute, .FramedRouting, .GateStatus, .GBR,
  .GracefulReleasePeriod, .GTPUPathInterfaceType, .GTPUPathQoSControlInformation, .GTPUPathQoSReport,
  .HeaderEnrichment, .InactivityDetectionTime, .IPMulticastAddress, .IPMulticastAddressingInfo, .IPVersion,
  .JoinIPMulticastInformationWithinUsageReport, .LeaveIPMulticastInformationWithinUsageReport, .LinkedURRID,
  .LoadControlInformation, .MACAddressesDetected, .MACAddressesRemoved, .MACAddress, .MARID, .MaximumPacketDelay,
  .MBR, .MeasurementInformation, .MeasurementMethod, .MeasurementPeriod, .Metric, .MinimumPacketDelay,
  .MinimumWaitTime, .MonitoringTime, .MPTCPAddressInformation, .MPTCPApplicableIndication,
  .MPTCPControlInformation, .MPTCPParameters, .MTEDTControlInformation, .Multiplier, .ValueDigits, .Exponent,
  .NetworkInstance, .NFInstanceID, .NodeID, .NodeReportType, .NonTGPPAccessForwardingActionInformation,
  .NumberOfReports, .NumberOfUEIPAddresses, .NWTTPortNumber, .OCIFlags, .OffendingIE, .OuterHeaderCreation,
  .OuterHeaderRemoval, .OverloadControlInformation, .PacketDelayThresholds, .PacketRateStatusReport,
  .PacketRateStatus, .PacketRate, .PacketReplicationAndDetectionCarryOnInformation, .PagingPolicyIndicator, .PDI,
  .PDNType, .PDRID, .PFCPAssociationReleaseRequest, .PFCPSessionRetentionInformation, .PFCPASReqFlags,
  .PFCPASRspFlags, .PFCPAUReqFlags, .PFCPSEReqFlags, .PFCPSMReqFlags, .PFCPSRReqFlags, .PFCPSRRspFlags,
  .PFDContents, .PFDContext, .PMFAddressInformation, .PMFControlInformation, .PMFParameters,
  .PortManagementInformationContainer, .Precedence, .Priority, .ProvideATSSSControlInformation,
  .ProvideRDSConfigurationInformation, .Proxying, .QERControlIndications, .QERCorrelationID, .QERID, .QFI,
  .QoSInformationInGTPUPathQoSReport, .QoSMonitoringMeasurement, .QoSMonitoringPerQoSFlowControlInformation,
  .QoSMonitoringReport, .QoSReportTrigger, .QueryPacketRateStatus, .QueryURRReference, .QueryURR,
  .QuotaHoldingTime, .QuotaValidityTime, .RDSConfigurationInformation, .RecoveryTimeStamp, .RedirectInformation,
  .RedundantTransmissionForwardingParameters, .RedundantTransmissionParameters, .RemoteGTPUPeer, .RemoveBAR,
  .RemoveFAR, .RemoveMAR, .RemovePDR, .RemoveQER, .RemoveSRR, .RemoveTrafficEndpoint, .RemoveURR, .ReportType,
  .ReportingFrequency, .ReportingTriggers, .RequestedAccessAvailabilityInformation,
  .RequestedClockDriftInformation, .RequestedQoSMonitoring, .RQI, .SNSSAI, .STAG, .SDFFilter, .SequenceNumber,
  .SessionReport, .SMFSetID, .SourceInterface, .SourceIPAddress, .SRRID, .StartTime, .SteeringFunctionality,
  .SteeringMode, .SubsequentEventQuota, .SubsequentEventThreshold, .SubsequentTimeQuota, .SubsequentTimeThreshold,
  .SubsequentVolumeQuota, .SubsequentVolumeThreshold, .SuggestedBufferingPacketsCount,
  .TGPPAccessForwardingActionInformation, .TGPPInterfaceType, .TimeOfFirstPacket, .TimeOfLastPacket,
  .TimeOffsetMeasurement, .TimeOffsetThreshold, .TimeQuotaMechanism, .TimeQuota, .TimeThreshold, .Timer,
  .TraceInformation, .TrafficEndpointID, .TransportDelayReporting, .TransportLevelMarking,
  .TSCManagementInformation, .PortManagementInformationForTSC, .TSNBridgeID, .TSNTimeDomainNumber,
  .UEIPAddressPoolIdentity, .UEIPAddressPoolInformation, .UEIPAddressUsageInformation, .UEIPAddress,
  .UELinkSpecificIPAddress, .UPFunctionFeatures, .UpdateTGPPAccessForwardingActionInformation, .UpdateBAR,
  .UpdateDuplicatingParameters, .UpdateFAR, .UpdateForwardingParameters, .UpdateMAR,
  .UpdateNonTGPPAccessForwardingActionInformation, .UpdatePDR, .UpdateQER, .UpdateSRR, .UpdateTrafficEndpoint,
  .UpdateURR, .UpdatedPDR, .URSEQN, .URRID, .UsageInformation, .UsageReportTrigger, .UsageReport, .UserID,
  .UserPlaneInactivityTimer, .UserPlaneIPResourceInformation, .UserPlanePathFailureReport,
  .UserPlanePathRecoveryReport, .ValidityTimer, .VolumeMeasurement, .VolumeQuota, .VolumeThreshold, .Weight]

end Acc
end Pfcp
