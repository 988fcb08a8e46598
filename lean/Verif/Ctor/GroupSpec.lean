/-
Specification for the theorems about constructors of grouped elements, written from names alone.
-/
import Verif.Ctor.Group

namespace Pfcp

/-- The children of what `NewX` makes are listed by `X`; where the constructor names the message or element around it
(`...WithinSessionModificationRequest`, `...InPDI`), by the accessor without that suffix. -/
def GroupCtor.acc : GroupCtor → Acc
  | .NewAccessAvailabilityControlInformation => .AccessAvailabilityControlInformation
  | .NewAccessAvailabilityReport => .AccessAvailabilityReport
  | .NewAdditionalMonitoringTime => .AdditionalMonitoringTime
  | .NewAggregatedURRs => .AggregatedURRs
  | .NewApplicationDetectionInformation => .ApplicationDetectionInformation
  | .NewApplicationIDsPFDs => .ApplicationIDsPFDs
  | .NewATSSSControlParameters => .ATSSSControlParameters
  | .NewATSSSLLParameters => .ATSSSLLParameters
  | .NewClockDriftControlInformation => .ClockDriftControlInformation
  | .NewClockDriftReport => .ClockDriftReport
  | .NewCreateBAR => .CreateBAR
  | .NewCreateFAR => .CreateFAR
  | .NewCreateMAR => .CreateMAR
  | .NewCreatePDR => .CreatePDR
  | .NewCreateQER => .CreateQER
  | .NewCreateSRR => .CreateSRR
  | .NewCreateTrafficEndpoint => .CreateTrafficEndpoint
  | .NewCreateURR => .CreateURR
  | .NewCreatedBridgeInfoForTSC => .CreatedBridgeInfoForTSC
  | .NewCreatedPDR => .CreatedPDR
  | .NewCreatedTrafficEndpoint => .CreatedTrafficEndpoint
  | .NewDownlinkDataReport => .DownlinkDataReport
  | .NewDuplicatingParameters => .DuplicatingParameters
  | .NewErrorIndicationReport => .ErrorIndicationReport
  | .NewEthernetContextInformation => .EthernetContextInformation
  | .NewEthernetPacketFilter => .EthernetPacketFilter
  | .NewEthernetTrafficInformation => .EthernetTrafficInformation
  | .NewForwardingParameters => .ForwardingParameters
  | .NewGTPUPathQoSControlInformation => .GTPUPathQoSControlInformation
  | .NewGTPUPathQoSReport => .GTPUPathQoSReport
  | .NewIPMulticastAddressingInfo => .IPMulticastAddressingInfo
  | .NewJoinIPMulticastInformationWithinUsageReport => .JoinIPMulticastInformationWithinUsageReport
  | .NewLeaveIPMulticastInformationWithinUsageReport => .LeaveIPMulticastInformationWithinUsageReport
  | .NewLoadControlInformation => .LoadControlInformation
  | .NewMPTCPParameters => .MPTCPParameters
  | .NewNonTGPPAccessForwardingActionInformation => .NonTGPPAccessForwardingActionInformation
  | .NewOverloadControlInformation => .OverloadControlInformation
  | .NewPacketRateStatusReport => .PacketRateStatusReport
  | .NewPacketRateStatusReportWithinSessionModificationResponse => .PacketRateStatusReport
  | .NewPDI => .PDI
  | .NewPFCPSessionRetentionInformation => .PFCPSessionRetentionInformation
  | .NewPFDContext => .PFDContext
  | .NewPMFParameters => .PMFParameters
  | .NewProvideATSSSControlInformation => .ProvideATSSSControlInformation
  | .NewProvideRDSConfigurationInformation => .ProvideRDSConfigurationInformation
  | .NewQoSInformationInGTPUPathQoSReport => .QoSInformationInGTPUPathQoSReport
  | .NewQoSMonitoringPerQoSFlowControlInformation => .QoSMonitoringPerQoSFlowControlInformation
  | .NewQoSMonitoringReport => .QoSMonitoringReport
  | .NewQueryPacketRateStatusWithinSessionModificationRequest => .QueryPacketRateStatus
  | .NewQueryURR => .QueryURR
  | .NewRedundantTransmissionForwardingParameters => .RedundantTransmissionForwardingParameters
  | .NewRedundantTransmissionParameters => .RedundantTransmissionParameters
  | .NewRedundantTransmissionParametersInPDI => .RedundantTransmissionParameters
  | .NewRedundantTransmissionParametersInFAR => .RedundantTransmissionParameters
  | .NewRemoveBAR => .RemoveBAR
  | .NewRemoveFAR => .RemoveFAR
  | .NewRemoveMAR => .RemoveMAR
  | .NewRemovePDR => .RemovePDR
  | .NewRemoveQER => .RemoveQER
  | .NewRemoveSRR => .RemoveSRR
  | .NewRemoveTrafficEndpoint => .RemoveTrafficEndpoint
  | .NewRemoveURR => .RemoveURR
  | .NewSessionReport => .SessionReport
  | .NewTGPPAccessForwardingActionInformation => .TGPPAccessForwardingActionInformation
  | .NewTransportDelayReporting => .TransportDelayReporting
  | .NewTSCManagementInformationWithinSessionModificationRequest => .TSCManagementInformation
  | .NewTSCManagementInformationWithinSessionModificationResponse => .TSCManagementInformation
  | .NewTSCManagementInformationWithinSessionReportRequest => .TSCManagementInformation
  | .NewPortManagementInformationForTSCWithinSessionModificationRequest => .PortManagementInformationForTSC
  | .NewPortManagementInformationForTSCWithinSessionModificationResponse => .PortManagementInformationForTSC
  | .NewPortManagementInformationForTSCWithinSessionReportRequest => .PortManagementInformationForTSC
  | .NewUEIPAddressPoolInformation => .UEIPAddressPoolInformation
  | .NewUEIPAddressUsageInformation => .UEIPAddressUsageInformation
  | .NewUpdateTGPPAccessForwardingActionInformation => .UpdateTGPPAccessForwardingActionInformation
  | .NewUpdateDuplicatingParameters => .UpdateDuplicatingParameters
  | .NewUpdateFAR => .UpdateFAR
  | .NewUpdateForwardingParameters => .UpdateForwardingParameters
  | .NewUpdateMAR => .UpdateMAR
  | .NewUpdateNonTGPPAccessForwardingActionInformation => .UpdateNonTGPPAccessForwardingActionInformation
  | .NewUpdatePDR => .UpdatePDR
  | .NewUpdateQER => .UpdateQER
  | .NewUpdateSRR => .UpdateSRR
  | .NewUpdateTrafficEndpoint => .UpdateTrafficEndpoint
  | .NewUpdateURR => .UpdateURR
  | .NewUpdatedPDR => .UpdatedPDR
  | .NewUserPlanePathFailureReport => .UserPlanePathFailureReport
  | .NewUserPlanePathRecoveryReport => .UserPlanePathRecoveryReport
  | .NewUpdateBARWithinSessionModificationRequest => .UpdateBAR
  | .NewUpdateBARWithinSessionReportResponse => .UpdateBAR
  | .NewUsageReportWithinSessionModificationResponse => .UsageReport
  | .NewUsageReportWithinSessionDeletionResponse => .UsageReport
  | .NewUsageReportWithinSessionReportRequest => .UsageReport

end Pfcp
