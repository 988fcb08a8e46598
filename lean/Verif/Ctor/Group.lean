/-
The constructors of grouped elements in /repo/ie, as a table: the element type and the number of arguments. Generated
from the Go sources; every entry cites its function. All of them consist of `return newGroupedIE(T, 0, args...)`
(`NewUpdateBARWithin...` and `NewUsageReportWithin...` through `NewUpdateBAR(typ, ies...)` and
`NewUsageReport(typ, ies...)`, /repo/ie/update-bar.go:8-10 and /repo/ie/usage-report.go:8-10). The four exported
functions that take the type as an argument (these two, `NewTSCManagementInformation`, /repo/ie/tsc-management-information.go:8-10
and `NewPortManagementInformationForTSC`, :41-43) are `newGrouped` of `Verif/IE/Model.lean` itself.
-/
import Verif.Acc.Table

namespace Pfcp

/-- The constructors. -/
inductive GroupCtor where
  | NewAccessAvailabilityControlInformation | NewAccessAvailabilityReport | NewAdditionalMonitoringTime
  | NewAggregatedURRs | NewApplicationDetectionInformation | NewApplicationIDsPFDs | NewATSSSControlParameters
  | NewATSSSLLParameters | NewClockDriftControlInformation | NewClockDriftReport | NewCreateBAR | NewCreateFAR
  | NewCreateMAR | NewCreatePDR | NewCreateQER | NewCreateSRR | NewCreateTrafficEndpoint | NewCreateURR
  | NewCreatedBridgeInfoForTSC | NewCreatedPDR | NewCreatedTrafficEndpoint | NewDownlinkDataReport
  | NewDuplicatingParameters | NewErrorIndicationReport | NewEthernetContextInformation | NewEthernetPacketFilter
  | NewEthernetTrafficInformation | NewForwardingParameters | NewGTPUPathQoSControlInformation
  | NewGTPUPathQoSReport | NewIPMulticastAddressingInfo | NewJoinIPMulticastInformationWithinUsageReport
  | NewLeaveIPMulticastInformationWithinUsageReport | NewLoadControlInformation | NewMPTCPParameters
  | NewNonTGPPAccessForwardingActionInformation | NewOverloadControlInformation | NewPacketRateStatusReport
  | NewPacketRateStatusReportWithinSessionModificationResponse | NewPDI | NewPFCPSessionRetentionInformation
  | NewPFDContext | NewPMFParameters | NewProvideATSSSControlInformation | NewProvideRDSConfigurationInformation
  | NewQoSInformationInGTPUPathQoSReport | NewQoSMonitoringPerQoSFlowControlInformation | NewQoSMonitoringReport
  | NewQueryPacketRateStatusWithinSessionModificationRequest | NewQueryURR
  | NewRedundantTransmissionForwardingParameters | NewRedundantTransmissionParameters
  | NewRedundantTransmissionParametersInPDI | NewRedundantTransmissionParametersInFAR | NewRemoveBAR | NewRemoveFAR
  | NewRemoveMAR | NewRemovePDR | NewRemoveQER | NewRemoveSRR | NewRemoveTrafficEndpoint | NewRemoveURR
  | NewSessionReport | NewTGPPAccessForwardingActionInformation | NewTransportDelayReporting
  | NewTSCManagementInformationWithinSessionModificationRequest
  | NewTSCManagementInformationWithinSessionModificationResponse
  | NewTSCManagementInformationWithinSessionReportRequest
  | NewPortManagementInformationForTSCWithinSessionModificationRequest
  | NewPortManagementInformationForTSCWithinSessionModificationResponse
  | NewPortManagementInformationForTSCWithinSessionReportRequest | NewUEIPAddressPoolInformation
  | NewUEIPAddressUsageInformation | NewUpdateTGPPAccessForwardingActionInformation
  | NewUpdateDuplicatingParameters | NewUpdateFAR | NewUpdateForwardingParameters | NewUpdateMAR
  | NewUpdateNonTGPPAccessForwardingActionInformation | NewUpdatePDR | NewUpdateQER | NewUpdateSRR
  | NewUpdateTrafficEndpoint | NewUpdateURR | NewUpdatedPDR | NewUserPlanePathFailureReport
  | NewUserPlanePathRecoveryReport | NewUpdateBARWithinSessionModificationRequest
  | NewUpdateBARWithinSessionReportResponse | NewUsageReportWithinSessionModificationResponse
  | NewUsageReportWithinSessionDeletionResponse | NewUsageReportWithinSessionReportRequest
  deriving DecidableEq

/-- All of them. -/
def GroupCtor.all : List GroupCtor := [
  .NewAccessAvailabilityControlInformation, .NewAccessAvailabilityReport, .NewAdditionalMonitoringTime,
  .NewAggregatedURRs, .NewApplicationDetectionInformation, .NewApplicationIDsPFDs, .NewATSSSControlParameters,
  .NewATSSSLLParameters, .NewClockDriftControlInformation, .NewClockDriftReport, .NewCreateBAR, .NewCreateFAR,
  .NewCreateMAR, .NewCreatePDR, .NewCreateQER, .NewCreateSRR, .NewCreateTrafficEndpoint, .NewCreateURR,
  .NewCreatedBridgeInfoForTSC, .NewCreatedPDR, .NewCreatedTrafficEndpoint, .NewDownlinkDataReport,
  .NewDuplicatingParameters, .NewErrorIndicationReport, .NewEthernetContextInformation, .NewEthernetPacketFilter,
  .NewEthernetTrafficInformation, .NewForwardingParameters, .NewGTPUPathQoSControlInformation,
  .NewGTPUPathQoSReport, .NewIPMulticastAddressingInfo, .NewJoinIPMulticastInformationWithinUsageReport,
  .NewLeaveIPMulticastInformationWithinUsageReport, .NewLoadControlInformation, .NewMPTCPParameters,
  .NewNonTGPPAccessForwardingActionInformation, .NewOverloadControlInformation, .NewPacketRateStatusReport,
  .NewPacketRateStatusReportWithinSessionModificationResponse, .NewPDI, .NewPFCPSessionRetentionInformation,
  .NewPFDContext, .NewPMFParameters, .NewProvideATSSSControlInformation, .NewProvideRDSConfigurationInformation,
  .NewQoSInformationInGTPUPathQoSReport, .NewQoSMonitoringPerQoSFlowControlInformation, .NewQoSMonitoringReport,
  .NewQueryPacketRateStatusWithinSessionModificationRequest, .NewQueryURR,
  .NewRedundantTransmissionForwardingParameters, .NewRedundantTransmissionParameters,
  .NewRedundantTransmissionParametersInPDI, .NewRedundantTransmissionParametersInFAR, .NewRemoveBAR, .NewRemoveFAR,
  .NewRemoveMAR, .NewRemovePDR, .NewRemoveQER, .NewRemoveSRR, .NewRemoveTrafficEndpoint, .NewRemoveURR,
  .NewSessionReport, .NewTGPPAccessForwardingActionInformation, .NewTransportDelayReporting,
  .NewTSCManagementInformationWithinSessionModificationRequest,
  .NewTSCManagementInformationWithinSessionModificationResponse,
  .NewTSCManagementInformationWithinSessionReportRequest,
  .NewPortManagementInformationForTSCWithinSessionModificationRequest,
  .NewPortManagementInformationForTSCWithinSessionModificationResponse,
  .NewPortManagementInformationForTSCWithinSessionReportRequest, .NewUEIPAddressPoolInformation,
  .NewUEIPAddressUsageInformation, .NewUpdateTGPPAccessForwardingActionInformation,
  .NewUpdateDuplicatingParameters, .NewUpdateFAR, .NewUpdateForwardingParameters, .NewUpdateMAR,
  .NewUpdateNonTGPPAccessForwardingActionInformation, .NewUpdatePDR, .NewUpdateQER, .NewUpdateSRR,
  .NewUpdateTrafficEndpoint, .NewUpdateURR, .NewUpdatedPDR, .NewUserPlanePathFailureReport,
  .NewUserPlanePathRecoveryReport, .NewUpdateBARWithinSessionModificationRequest,
  .NewUpdateBARWithinSessionReportResponse, .NewUsageReportWithinSessionModificationResponse,
  .NewUsageReportWithinSessionDeletionResponse, .NewUsageReportWithinSessionReportRequest]

/-- The element type. Most constructors take `ies ...*IE`; those that take a fixed number of arguments pass them on in order,
so that the list of arguments stands for both kinds. -/
def GroupCtor.def : GroupCtor → IEType
  /- /repo/ie/access-availability-control-information.go:8-10 -/
  | .NewAccessAvailabilityControlInformation => T.AccessAvailabilityControlInformation
  /- /repo/ie/access-availability-report.go:8-10 -/
  | .NewAccessAvailabilityReport => T.AccessAvailabilityReport
  /- /repo/ie/additional-monitoring-time.go:8-10 -/
  | .NewAdditionalMonitoringTime => T.AdditionalMonitoringTime
  /- /repo/ie/aggregated-urrs.go:8-10 -/
  | .NewAggregatedURRs => T.AggregatedURRs
  /- /repo/ie/application-detection-information.go:8-10 -/
  | .NewApplicationDetectionInformation => T.ApplicationDetectionInformation
  /- /repo/ie/application-ids-pfds.go:8-10 -/
  | .NewApplicationIDsPFDs => T.ApplicationIDsPFDs
  /- /repo/ie/atsss-control-parameters.go:8-10 -/
  | .NewATSSSControlParameters => T.ATSSSControlParameters
  /- /repo/ie/atsss-ll-parameters.go:8-10 -/
  | .NewATSSSLLParameters => T.ATSSSLLParameters
  /- /repo/ie/clock-drift-control-information.go:8-10 -/
  | .NewClockDriftControlInformation => T.ClockDriftControlInformation
  /- /repo/ie/clock-drift-report.go:8-10 -/
  | .NewClockDriftReport => T.ClockDriftReport
  /- /repo/ie/create-bar.go:8-10 -/
  | .NewCreateBAR => T.CreateBAR
  /- /repo/ie/create-far.go:8-10 -/
  | .NewCreateFAR => T.CreateFAR
  /- /repo/ie/create-mar.go:8-10 -/
  | .NewCreateMAR => T.CreateMAR
  /- /repo/ie/create-pdr.go:8-10 -/
  | .NewCreatePDR => T.CreatePDR
  /- /repo/ie/create-qer.go:8-10 -/
  | .NewCreateQER => T.CreateQER
  /- /repo/ie/create-srr.go:8-10 -/
  | .NewCreateSRR => T.CreateSRR
  /- /repo/ie/create-traffic-endpoint.go:8-10 -/
  | .NewCreateTrafficEndpoint => T.CreateTrafficEndpoint
  /- /repo/ie/create-urr.go:8-11 -/
  | .NewCreateURR => T.CreateURR
  /- /repo/ie/created-bridge-info-for-tsc.go:8-10 -/
  | .NewCreatedBridgeInfoForTSC => T.CreatedBridgeInfoForTSC
  /- /repo/ie/created-pdr.go:8-10 -/
  | .NewCreatedPDR => T.CreatedPDR
  /- /repo/ie/created-traffic-endpoint.go:8-10 -/
  | .NewCreatedTrafficEndpoint => T.CreatedTrafficEndpoint
  /- /repo/ie/downlink-data-report.go:8-10 -/
  | .NewDownlinkDataReport => T.DownlinkDataReport
  /- /repo/ie/duplicating-parameters.go:8-10 -/
  | .NewDuplicatingParameters => T.DuplicatingParameters
  /- /repo/ie/error-indication-report.go:8-10 -/
  | .NewErrorIndicationReport => T.ErrorIndicationReport
  /- /repo/ie/ethernet-context-information.go:8-10 -/
  | .NewEthernetContextInformation => T.EthernetContextInformation
  /- /repo/ie/ethernet-packet-filter.go:8-10 -/
  | .NewEthernetPacketFilter => T.EthernetPacketFilter
  /- /repo/ie/ethernet-traffic-information.go:8-10 -/
  | .NewEthernetTrafficInformation => T.EthernetTrafficInformation
  /- /repo/ie/forwarding-parameters.go:8-10 -/
  | .NewForwardingParameters => T.ForwardingParameters
  /- /repo/ie/gtp-u-path-qos-control-information.go:8-10 -/
  | .NewGTPUPathQoSControlInformation => T.GTPUPathQoSControlInformation
  /- /repo/ie/gtp-u-path-qos-report.go:8-10 -/
  | .NewGTPUPathQoSReport => T.GTPUPathQoSReport
  /- /repo/ie/ip-multicast-addressing-info.go:8-10 -/
  | .NewIPMulticastAddressingInfo => T.IPMulticastAddressingInfo
  /- /repo/ie/join-ip-multicast-information.go:8-10 -/
  | .NewJoinIPMulticastInformationWithinUsageReport => T.JoinIPMulticastInformationWithinUsageReport
  /- /repo/ie/leave-ip-multicast-information.go:8-10 -/
  | .NewLeaveIPMulticastInformationWithinUsageReport => T.LeaveIPMulticastInformationWithinUsageReport
  /- /repo/ie/load-control-information.go:8-10 -/
  | .NewLoadControlInformation => T.LoadControlInformation
  /- /repo/ie/mptcp-parameters.go:8-10 -/
  | .NewMPTCPParameters => T.MPTCPParameters
  /- /repo/ie/non-3gpp-access-forwarding-action-information.go:8-10 -/
  | .NewNonTGPPAccessForwardingActionInformation => T.NonTGPPAccessForwardingActionInformation
  /- /repo/ie/overload-control-information.go:8-10 -/
  | .NewOverloadControlInformation => T.OverloadControlInformation
  /- /repo/ie/packet-rate-status-report.go:8-10 -/
  | .NewPacketRateStatusReport => T.PacketRateStatusReport
  /- /repo/ie/packet-rate-status-report.go:13-15 -/
  | .NewPacketRateStatusReportWithinSessionModificationResponse => T.PacketRateStatusReportWithinSessionModificationResponse
  /- /repo/ie/pdi.go:8-10 -/
  | .NewPDI => T.PDI
  /- /repo/ie/pfcp-session-retention-information.go:8-10 -/
  | .NewPFCPSessionRetentionInformation => T.PFCPSessionRetentionInformation
  /- /repo/ie/pfd-context.go:8-10 -/
  | .NewPFDContext => T.PFDContext
  /- /repo/ie/pmf-parameters.go:8-10 -/
  | .NewPMFParameters => T.PMFParameters
  /- /repo/ie/provide-atsss-control-information.go:8-10 -/
  | .NewProvideATSSSControlInformation => T.ProvideATSSSControlInformation
  /- /repo/ie/provide-rds-configuration-information.go:8-10 -/
  | .NewProvideRDSConfigurationInformation => T.ProvideRDSConfigurationInformation
  /- /repo/ie/qos-information-in-gtp-u-path-qos-report.go:8-10 -/
  | .NewQoSInformationInGTPUPathQoSReport => T.QoSInformationInGTPUPathQoSReport
  /- /repo/ie/qos-monitoring-per-qos-flow-control-information.go:8-10 -/
  | .NewQoSMonitoringPerQoSFlowControlInformation => T.QoSMonitoringPerQoSFlowControlInformation
  /- /repo/ie/qos-monitoring-report.go:8-10 -/
  | .NewQoSMonitoringReport => T.QoSMonitoringReport
  /- /repo/ie/query-packet-rate-status.go:8-10 -/
  | .NewQueryPacketRateStatusWithinSessionModificationRequest => T.QueryPacketRateStatusWithinSessionModificationRequest
  /- /repo/ie/query-urr.go:8-10 -/
  | .NewQueryURR => T.QueryURR
  /- /repo/ie/redundant-transmission-forwarding-parameters.go:8-10 -/
  | .NewRedundantTransmissionForwardingParameters => T.RedundantTransmissionForwardingParameters
  /- /repo/ie/redundant-transmission-parameters.go:8-10 -/
  | .NewRedundantTransmissionParameters => T.RedundantTransmissionParameters
  /- /repo/ie/redundant-transmission-parameters.go:13-15 -/
  | .NewRedundantTransmissionParametersInPDI => T.RedundantTransmissionParameters
  /- /repo/ie/redundant-transmission-parameters.go:18-20 -/
  | .NewRedundantTransmissionParametersInFAR => T.RedundantTransmissionParameters
  /- /repo/ie/remove-bar.go:8-10 -/
  | .NewRemoveBAR => T.RemoveBAR
  /- /repo/ie/remove-far.go:8-10 -/
  | .NewRemoveFAR => T.RemoveFAR
  /- /repo/ie/remove-mar.go:8-10 -/
  | .NewRemoveMAR => T.RemoveMAR
  /- /repo/ie/remove-pdr.go:8-10 -/
  | .NewRemovePDR => T.RemovePDR
  /- /repo/ie/remove-qer.go:8-10 -/
  | .NewRemoveQER => T.RemoveQER
  /- /repo/ie/remove-srr.go:8-10 -/
  | .NewRemoveSRR => T.RemoveSRR
  /- /repo/ie/remove-traffic-endpoint.go:8-10 -/
  | .NewRemoveTrafficEndpoint => T.RemoveTrafficEndpoint
  /- /repo/ie/remove-urr.go:8-10 -/
  | .NewRemoveURR => T.RemoveURR
  /- /repo/ie/session-report.go:8-10 -/
  | .NewSessionReport => T.SessionReport
  /- /repo/ie/tgpp-access-forwarding-action-information.go:8-10 -/
  | .NewTGPPAccessForwardingActionInformation => T.TGPPAccessForwardingActionInformation
  /- /repo/ie/transport-delay-reporting.go:8-10 -/
  | .NewTransportDelayReporting => T.TransportDelayReporting
  /- /repo/ie/tsc-management-information.go:13-15 -/
  | .NewTSCManagementInformationWithinSessionModificationRequest => T.TSCManagementInformationWithinSessionModificationRequest
  /- /repo/ie/tsc-management-information.go:18-20 -/
  | .NewTSCManagementInformationWithinSessionModificationResponse => T.TSCManagementInformationWithinSessionModificationResponse
  /- /repo/ie/tsc-management-information.go:23-25 -/
  | .NewTSCManagementInformationWithinSessionReportRequest => T.TSCManagementInformationWithinSessionReportRequest
  /- /repo/ie/tsc-management-information.go:46-48 -/
  | .NewPortManagementInformationForTSCWithinSessionModificationRequest => T.PortManagementInformationForTSCWithinSessionModificationRequest
  /- /repo/ie/tsc-management-information.go:51-53 -/
  | .NewPortManagementInformationForTSCWithinSessionModificationResponse => T.PortManagementInformationForTSCWithinSessionModificationResponse
  /- /repo/ie/tsc-management-information.go:56-58 -/
  | .NewPortManagementInformationForTSCWithinSessionReportRequest => T.PortManagementInformationForTSCWithinSessionReportRequest
  /- /repo/ie/ue-ip-address-pool-information.go:8-10 -/
  | .NewUEIPAddressPoolInformation => T.UEIPAddressPoolInformation
  /- /repo/ie/ue-ip-address-usage-information.go:8-10 -/
  | .NewUEIPAddressUsageInformation => T.UEIPAddressUsageInformation
  /- /repo/ie/update-3gpp-access-forwarding-action-information.go:8-10 -/
  | .NewUpdateTGPPAccessForwardingActionInformation => T.UpdateTGPPAccessForwardingActionInformation
  /- /repo/ie/update-duplicating-parameters.go:8-10 -/
  | .NewUpdateDuplicatingParameters => T.UpdateDuplicatingParameters
  /- /repo/ie/update-far.go:8-10 -/
  | .NewUpdateFAR => T.UpdateFAR
  /- /repo/ie/update-forwarding-parameters.go:8-10 -/
  | .NewUpdateForwardingParameters => T.UpdateForwardingParameters
  /- /repo/ie/update-mar.go:8-10 -/
  | .NewUpdateMAR => T.UpdateMAR
  /- /repo/ie/update-non-3gpp-access-forwarding-action-information.go:8-10 -/
  | .NewUpdateNonTGPPAccessForwardingActionInformation => T.UpdateNonTGPPAccessForwardingActionInformation
  /- /repo/ie/update-pdr.go:8-10 -/
  | .NewUpdatePDR => T.UpdatePDR
  /- /repo/ie/update-qer.go:8-10 -/
  | .NewUpdateQER => T.UpdateQER
  /- /repo/ie/update-srr.go:8-10 -/
  | .NewUpdateSRR => T.UpdateSRR
  /- /repo/ie/update-traffic-endpoint.go:8-10 -/
  | .NewUpdateTrafficEndpoint => T.UpdateTrafficEndpoint
  /- /repo/ie/update-urr.go:8-11 -/
  | .NewUpdateURR => T.UpdateURR
  /- /repo/ie/updated-pdr.go:8-10 -/
  | .NewUpdatedPDR => T.UpdatedPDR
  /- /repo/ie/user-plane-path-failure-report.go:8-10 -/
  | .NewUserPlanePathFailureReport => T.UserPlanePathFailureReport
  /- /repo/ie/user-plane-path-recovery-report.go:8-10 -/
  | .NewUserPlanePathRecoveryReport => T.UserPlanePathRecoveryReport
  /- /repo/ie/update-bar.go:13-15 -/
  | .NewUpdateBARWithinSessionModificationRequest => T.UpdateBARWithinSessionModificationRequest
  /- /repo/ie/update-bar.go:18-20 -/
  | .NewUpdateBARWithinSessionReportResponse => T.UpdateBARWithinSessionReportResponse
  /- /repo/ie/usage-report.go:13-15 -/
  | .NewUsageReportWithinSessionModificationResponse => T.UsageReportWithinSessionModificationResponse
  /- /repo/ie/usage-report.go:18-20 -/
  | .NewUsageReportWithinSessionDeletionResponse => T.UsageReportWithinSessionDeletionResponse
  /- /repo/ie/usage-report.go:23-25 -/
  | .NewUsageReportWithinSessionReportRequest => T.UsageReportWithinSessionReportRequest

/-- A call with the given arguments, nil ones being `none`; Go does not compile a call with the wrong number. -/
def GroupCtor.build (g : IEType → Bool) (c : GroupCtor) (args : List (Option IE)) : Res (Option IE) :=
  newGrouped g c.def 0 args

end Pfcp
