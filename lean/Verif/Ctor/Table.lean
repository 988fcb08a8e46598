/-
The constructors of /repo/ie that make an element from one number, text, duration or time, as a table: the element
type, and how the argument becomes the payload. Generated from the Go sources; every entry cites its function.
Constructors of grouped elements and of elements with several fields are elsewhere (`Verif/IE/Model.lean`,
`Verif/Fields/`, `Verif/Ctor/Multi.lean`).
-/
import Verif.Acc.Table

namespace Pfcp

/-- How the argument of a constructor becomes the payload. -/
inductive Enc where
  /-- `newUint8ValIE(T, v)` and so on, /repo/ie/ie.go:634-654. -/
  | u8 | u16 | u32 | u64
  /-- `newUint8ValIE(T, v&mask)`. -/
  | u8mask (mask : UInt8)
  /-- `newStringIE(T, v)`, /repo/ie/ie.go:656-658. -/
  | str
  /-- `newFQDNIE(T, v)`, /repo/ie/ie.go:660-662. -/
  | fqdn
  /-- `New(T, octets)` with the variadic octets. -/
  | octets
  /-- `newUint32ValIE(T, uint32(d.Seconds()))` and with 16 bits. -/
  | sec32 | sec16
  /-- `newUint32ValIE(T, uint32(d.Milliseconds()))`. -/
  | ms32
  /-- `newUint64ValIE(T, uint64(d.Nanoseconds()))`. -/
  | ns64
  /-- `newUint32ValIE(T, uint32(u64sec))`, see `timestampWord`. -/
  | stamp
  /-- `newUint8ValIE(T, unit+(value&0x1f))`, see `timerOctet`. -/
  | timer
  /-- `newUint8ValIE(T, uint8(d/50000000))`. -/
  | delay50
  deriving DecidableEq

/-- The constructors. -/
inductive IECtor where
  | NewActivatePredefinedRules | NewActivationTime | NewAggregatedURRID | NewAPNDNN | NewApplicationID
  | NewApplicationInstanceID | NewApplyAction | NewATSSSLLControlInformation | NewATSSSLLInformation
  | NewAveragePacketDelay | NewAveragingWindow | NewBARID | NewBridgeManagementInformationContainer | NewCause
  | NewCPFunctionFeatures | NewCreateBridgeInfoForTSC | NewCumulativeRateRatioMeasurement
  | NewCumulativeRateRatioThreshold | NewDataNetworkAccessIdentifier | NewDataStatus | NewDeactivatePredefinedRules
  | NewDeactivationTime | NewDestinationInterface | NewDLBufferingDuration | NewDLDataPacketsSize
  | NewDownlinkDataNotificationDelay | NewDSTTPortNumber | NewDurationMeasurement | NewEndTime | NewEthernetFilterID
  | NewEthernetFilterProperties | NewEthernetInactivityTimer | NewEthernetPDUSessionInformation | NewEthertype
  | NewEventQuota | NewEventThreshold | NewEventTimeStamp | NewFARID | NewFramedIPv6Route | NewFramedRoute
  | NewFramedRouting | NewGracefulReleasePeriod | NewInactivityDetectionTime | NewLinkedURRID | NewMARID
  | NewMaximumPacketDelay | NewMeasurementInformation | NewMeasurementPeriod | NewMetric | NewMinimumPacketDelay
  | NewMinimumWaitTime | NewMonitoringTime | NewMPTCPApplicableIndication | NewMPTCPControlInformation
  | NewMTEDTControlInformation | NewNetworkInstance | NewNetworkInstanceFQDN | NewNodeReportType | NewNumberOfReports
  | NewNWTTPortNumber | NewOCIFlags | NewOffendingIE | NewPacketReplicationAndDetectionCarryOnInformation
  | NewPagingPolicyIndicator | NewPDNType | NewPDRID | NewPFCPASReqFlags | NewPFCPASRspFlags | NewPFCPAUReqFlags
  | NewPFCPSEReqFlags | NewPFCPSMReqFlags | NewPFCPSRReqFlags | NewPFCPSRRspFlags | NewPMFControlInformation
  | NewPortManagementInformationContainer | NewPrecedence | NewPriority | NewQERCorrelationID | NewQERID | NewQFI
  | NewQueryURRReference | NewQuotaHoldingTime | NewQuotaValidityTime | NewRDSConfigurationInformation
  | NewRecoveryTimeStamp | NewReportingTriggers | NewRequestedAccessAvailabilityInformation | NewRQI
  | NewSequenceNumber | NewSMFSetID | NewSourceInterface | NewSRRID | NewStartTime | NewSteeringFunctionality
  | NewSteeringMode | NewSubsequentEventQuota | NewSubsequentEventThreshold | NewSubsequentTimeQuota
  | NewSubsequentTimeThreshold | NewSuggestedBufferingPacketsCount | NewTGPPInterfaceType | NewTimeOfFirstPacket
  | NewTimeOfLastPacket | NewTimeOffsetMeasurement | NewTimeOffsetThreshold | NewTimeQuota | NewTimeThreshold
  | NewTimer | NewTrafficEndpointID | NewTransportLevelMarking | NewTSNTimeDomainNumber | NewURSEQN | NewURRID
  | NewUsageReportTrigger | NewUserPlaneInactivityTimer | NewValidityTimer | NewWeight
  deriving DecidableEq

/-- All of them. -/
def IECtor.all : List IECtor := [
  .NewActivatePredefinedRules, .NewActivationTime, .NewAggregatedURRID, .NewAPNDNN, .NewApplicationID,
  .NewApplicationInstanceID, .NewApplyAction, .NewATSSSLLControlInformation, .NewATSSSLLInformation,
  .NewAveragePacketDelay, .NewAveragingWindow, .NewBARID, .NewBridgeManagementInformationContainer, .NewCause,
  .NewCPFunctionFeatures, .NewCreateBridgeInfoForTSC, .NewCumulativeRateRatioMeasurement,
  .NewCumulativeRateRatioThreshold, .NewDataNetworkAccessIdentifier, .NewDataStatus, .NewDeactivatePredefinedRules,
  .NewDeactivationTime, .NewDestinationInterface, .NewDLBufferingDuration, .NewDLDataPacketsSize,
  .NewDownlinkDataNotificationDelay, .NewDSTTPortNumber, .NewDurationMeasurement, .NewEndTime, .NewEthernetFilterID,
  .NewEthernetFilterProperties, .NewEthernetInactivityTimer, .NewEthernetPDUSessionInformation, .NewEthertype,
  .NewEventQuota, .NewEventThreshold, .NewEventTimeStamp, .NewFARID, .NewFramedIPv6Route, .NewFramedRoute,
  .NewFramedRouting, .NewGracefulReleasePeriod, .NewInactivityDetectionTime, .NewLinkedURRID, .NewMARID,
  .NewMaximumPacketDelay, .NewMeasurementInformation, .NewMeasurementPeriod, .NewMetric, .NewMinimumPacketDelay,
  .NewMinimumWaitTime, .NewMonitoringTime, .NewMPTCPApplicableIndication, .NewMPTCPControlInformation,
  .NewMTEDTControlInformation, .NewNetworkInstance, .NewNetworkInstanceFQDN, .NewNodeReportType,
  .NewNumberOfReports, .NewNWTTPortNumber, .NewOCIFlags, .NewOffendingIE,
  .NewPacketReplicationAndDetectionCarryOnInformation, .NewPagingPolicyIndicator, .NewPDNType, .NewPDRID,
  .NewPFCPASReqFlags, .NewPFCPASRspFlags, .NewPFCPAUReqFlags, .NewPFCPSEReqFlags, .NewPFCPSMReqFlags,
  .NewPFCPSRReqFlags, .NewPFCPSRRspFlags, .NewPMFControlInformation, .NewPortManagementInformationContainer,
  .NewPrecedence, .NewPriority, .NewQERCorrelationID, .NewQERID, .NewQFI, .NewQueryURRReference,
  .NewQuotaHoldingTime, .NewQuotaValidityTime, .NewRDSConfigurationInformation, .NewRecoveryTimeStamp,
  .NewReportingTriggers, .NewRequestedAccessAvailabilityInformation, .NewRQI, .NewSequenceNumber, .NewSMFSetID,
  .NewSourceInterface, .NewSRRID, .NewStartTime, .NewSteeringFunctionality, .NewSteeringMode,
  .NewSubsequentEventQuota, .NewSubsequentEventThreshold, .NewSubsequentTimeQuota, .NewSubsequentTimeThreshold,
  .NewSuggestedBufferingPacketsCount, .NewTGPPInterfaceType, .NewTimeOfFirstPacket, .NewTimeOfLastPacket,
  .NewTimeOffsetMeasurement, .NewTimeOffsetThreshold, .NewTimeQuota, .NewTimeThreshold, .NewTimer,
  .NewTrafficEndpointID, .NewTransportLevelMarking, .NewTSNTimeDomainNumber, .NewURSEQN, .NewURRID,
  .NewUsageReportTrigger, .NewUserPlaneInactivityTimer, .NewValidityTimer, .NewWeight]

/-- Element type and payload of each. -/
def IECtor.def : IECtor → IEType × Enc
  /- /repo/ie/activate-predefined-rules.go:8-10. -/
  | .NewActivatePredefinedRules => (T.ActivatePredefinedRules, .str)
  /- /repo/ie/activation-time.go:12-15. -/
  | .NewActivationTime => (T.ActivationTime, .stamp)
  /- /repo/ie/aggregated-urr-id.go:8-10. -/
  | .NewAggregatedURRID => (T.AggregatedURRID, .u32)
  /- /repo/ie/apn-dnn.go:8-10. -/
  | .NewAPNDNN => (T.APNDNN, .fqdn)
  /- /repo/ie/application-id.go:8-10. -/
  | .NewApplicationID => (T.ApplicationID, .str)
  /- /repo/ie/application-instance-id.go:8-10. -/
  | .NewApplicationInstanceID => (T.ApplicationInstanceID, .str)
  /- /repo/ie/apply-action.go:10-12. -/
  | .NewApplyAction => (T.ApplyAction, .octets)
  /- /repo/ie/atsss-ll-control-information.go:8-10. -/
  | .NewATSSSLLControlInformation => (T.ATSSSLLControlInformation, (.u8mask 0x01))
  /- /repo/ie/atsss-ll-information.go:8-10. -/
  | .NewATSSSLLInformation => (T.ATSSSLLInformation, (.u8mask 0x01))
  /- /repo/ie/average-packet-delay.go:16-18. -/
  | .NewAveragePacketDelay => (T.AveragePacketDelay, .ms32)
  /- /repo/ie/averaging-window.go:8-10. -/
  | .NewAveragingWindow => (T.AveragingWindow, .u32)
  /- /repo/ie/bar-id.go:8-10. -/
  | .NewBARID => (T.BARID, .u8)
  /- /repo/ie/bridge-management-information-container.go:8-10. -/
  | .NewBridgeManagementInformationContainer => (T.BridgeManagementInformationContainer, .str)
  /- /repo/ie/cause.go:29-31. -/
  | .NewCause => (T.Cause, .u8)
  /- /repo/ie/cp-function-features.go:10-12. -/
  | .NewCPFunctionFeatures => (T.CPFunctionFeatures, .octets)
  /- /repo/ie/create-bridge-info-for-tsc.go:8-10. -/
  | .NewCreateBridgeInfoForTSC => (T.CreateBridgeInfoForTSC, (.u8mask 0x01))
  /- /repo/ie/cumulative-rate-ratio-measurement.go:8-10. -/
  | .NewCumulativeRateRatioMeasurement => (T.CumulativeRateRatioMeasurement, .u32)
  /- /repo/ie/cumulative-rate-ratio-threshold.go:8-10. -/
  | .NewCumulativeRateRatioThreshold => (T.CumulativeRateRatioThreshold, .u32)
  /- /repo/ie/data-network-access-identifier.go:8-10. -/
  | .NewDataNetworkAccessIdentifier => (T.DataNetworkAccessIdentifier, .str)
  /- /repo/ie/data-status.go:8-10. -/
  | .NewDataStatus => (T.DataStatus, .u8)
  /- /repo/ie/deactivate-predefined-rules.go:8-10. -/
  | .NewDeactivatePredefinedRules => (T.DeactivatePredefinedRules, .str)
  /- /repo/ie/deactivation-time.go:12-15. -/
  | .NewDeactivationTime => (T.DeactivationTime, .stamp)
  /- /repo/ie/destination-interface.go:18-20. -/
  | .NewDestinationInterface => (T.DestinationInterface, .u8)
  /- /repo/ie/dl-buffering-duration.go:14-52. -/
  | .NewDLBufferingDuration => (T.DLBufferingDuration, .timer)
  /- /repo/ie/dl-data-packets-size.go:8-10. -/
  | .NewDLDataPacketsSize => (T.DLDataPacketsSize, .u16)
  /- /repo/ie/downlink-data-notification-delay.go:13-17. -/
  | .NewDownlinkDataNotificationDelay => (T.DownlinkDataNotificationDelay, .delay50)
  /- /repo/ie/ds-tt-port-number.go:8-10. -/
  | .NewDSTTPortNumber => (T.DSTTPortNumber, .u32)
  /- /repo/ie/duration-measurement.go:16-18. -/
  | .NewDurationMeasurement => (T.DurationMeasurement, .sec32)
  /- /repo/ie/end-time.go:12-15. -/
  | .NewEndTime => (T.EndTime, .stamp)
  /- /repo/ie/ethernet-filter-id.go:8-10. -/
  | .NewEthernetFilterID => (T.EthernetFilterID, .u32)
  /- /repo/ie/ethernet-filter-properties.go:8-10. -/
  | .NewEthernetFilterProperties => (T.EthernetFilterProperties, .u8)
  /- /repo/ie/ethernet-inactivity-timer.go:16-18. -/
  | .NewEthernetInactivityTimer => (T.EthernetInactivityTimer, .sec32)
  /- /repo/ie/ethernet-pdu-session-information.go:8-10. -/
  | .NewEthernetPDUSessionInformation => (T.EthernetPDUSessionInformation, .u8)
  /- /repo/ie/ethertype.go:8-10. -/
  | .NewEthertype => (T.Ethertype, .u16)
  /- /repo/ie/event-quota.go:8-10. -/
  | .NewEventQuota => (T.EventQuota, .u32)
  /- /repo/ie/event-threshold.go:8-10. -/
  | .NewEventThreshold => (T.EventThreshold, .u32)
  /- /repo/ie/event-time-stamp.go:12-15. -/
  | .NewEventTimeStamp => (T.EventTimeStamp, .stamp)
  /- /repo/ie/far-id.go:8-10. -/
  | .NewFARID => (T.FARID, .u32)
  /- /repo/ie/framed-ipv6-route.go:8-10. -/
  | .NewFramedIPv6Route => (T.FramedIPv6Route, .str)
  /- /repo/ie/framed-route.go:8-10. -/
  | .NewFramedRoute => (T.FramedRoute, .str)
  /- /repo/ie/framed-routing.go:18-20. -/
  | .NewFramedRouting => (T.FramedRouting, .u32)
  /- /repo/ie/graceful-release-period.go:14-52. -/
  | .NewGracefulReleasePeriod => (T.GracefulReleasePeriod, .timer)
  /- /repo/ie/inactivity-detection-time.go:8-10. -/
  | .NewInactivityDetectionTime => (T.InactivityDetectionTime, .u32)
  /- /repo/ie/linked-urr-id.go:8-10. -/
  | .NewLinkedURRID => (T.LinkedURRID, .u32)
  /- /repo/ie/mar-id.go:8-10. -/
  | .NewMARID => (T.MARID, .u16)
  /- /repo/ie/maximum-packet-delay.go:16-18. -/
  | .NewMaximumPacketDelay => (T.MaximumPacketDelay, .ms32)
  /- /repo/ie/measurement-information.go:8-10. -/
  | .NewMeasurementInformation => (T.MeasurementInformation, .u8)
  /- /repo/ie/measurement-period.go:16-18. -/
  | .NewMeasurementPeriod => (T.MeasurementPeriod, .sec32)
  /- /repo/ie/metric.go:8-10. -/
  | .NewMetric => (T.Metric, .u8)
  /- /repo/ie/minimum-packet-delay.go:16-18. -/
  | .NewMinimumPacketDelay => (T.MinimumPacketDelay, .ms32)
  /- /repo/ie/minimum-wait-time.go:16-18. -/
  | .NewMinimumWaitTime => (T.MinimumWaitTime, .sec32)
  /- /repo/ie/monitoring-time.go:12-15. -/
  | .NewMonitoringTime => (T.MonitoringTime, .stamp)
  /- /repo/ie/mptcp-applicable-indication.go:8-10. -/
  | .NewMPTCPApplicableIndication => (T.MPTCPApplicableIndication, .u8)
  /- /repo/ie/mptcp-control-information.go:8-10. -/
  | .NewMPTCPControlInformation => (T.MPTCPControlInformation, (.u8mask 0x01))
  /- /repo/ie/mt-edt-control-information.go:8-10. -/
  | .NewMTEDTControlInformation => (T.MTEDTControlInformation, (.u8mask 0x01))
  /- /repo/ie/network-instance.go:10-12. -/
  | .NewNetworkInstance => (T.NetworkInstance, .str)
  /- /repo/ie/network-instance.go:16-18. -/
  | .NewNetworkInstanceFQDN => (T.NetworkInstance, .fqdn)
  /- /repo/ie/node-report-type.go:8-10. -/
  | .NewNodeReportType => (T.NodeReportType, .u8)
  /- /repo/ie/number-of-reports.go:8-10. -/
  | .NewNumberOfReports => (T.NumberOfReports, .u16)
  /- /repo/ie/nw-tt-port-number.go:8-10. -/
  | .NewNWTTPortNumber => (T.NWTTPortNumber, .u32)
  /- /repo/ie/oci-flags.go:8-10. -/
  | .NewOCIFlags => (T.OCIFlags, .u8)
  /- /repo/ie/offending-ie.go:8-10. -/
  | .NewOffendingIE => (T.OffendingIE, .u16)
  /- /repo/ie/packet-replication-and-detection-carry-on-information.go:8-10. -/
  | .NewPacketReplicationAndDetectionCarryOnInformation => (T.PacketReplicationAndDetectionCarryOnInformation, .u8)
  /- /repo/ie/paging-policy-indicator.go:10-12. -/
  | .NewPagingPolicyIndicator => (T.PagingPolicyIndicator, .u8)
  /- /repo/ie/pdn-type.go:18-20. -/
  | .NewPDNType => (T.PDNType, .u8)
  /- /repo/ie/pdr-id.go:8-10. -/
  | .NewPDRID => (T.PDRID, .u16)
  /- /repo/ie/pfcpasreq-flags.go:8-10. -/
  | .NewPFCPASReqFlags => (T.PFCPASReqFlags, .u8)
  /- /repo/ie/pfcpasrsp-flags.go:8-10. -/
  | .NewPFCPASRspFlags => (T.PFCPASRspFlags, .u8)
  /- /repo/ie/pfcpaureq-flags.go:8-10. -/
  | .NewPFCPAUReqFlags => (T.PFCPAUReqFlags, .u8)
  /- /repo/ie/pfcpsereq-flags.go:8-10. -/
  | .NewPFCPSEReqFlags => (T.PFCPSEReqFlags, .u8)
  /- /repo/ie/pfcpsmreq-flags.go:8-10. -/
  | .NewPFCPSMReqFlags => (T.PFCPSMReqFlags, .u8)
  /- /repo/ie/pfcpsrreq-flags.go:8-10. -/
  | .NewPFCPSRReqFlags => (T.PFCPSRReqFlags, .u8)
  /- /repo/ie/pfcpsrrsp-flags.go:8-10. -/
  | .NewPFCPSRRspFlags => (T.PFCPSRRspFlags, .u8)
  /- /repo/ie/pmf-control-information.go:8-10. -/
  | .NewPMFControlInformation => (T.PMFControlInformation, (.u8mask 0x01))
  /- /repo/ie/port-management-information-container.go:8-10. -/
  | .NewPortManagementInformationContainer => (T.PortManagementInformationContainer, .str)
  /- /repo/ie/precedence.go:8-10. -/
  | .NewPrecedence => (T.Precedence, .u32)
  /- /repo/ie/priority.go:17-19. -/
  | .NewPriority => (T.Priority, (.u8mask 0x0f))
  /- /repo/ie/qer-correlation-id.go:8-10. -/
  | .NewQERCorrelationID => (T.QERCorrelationID, .u32)
  /- /repo/ie/qer-id.go:8-10. -/
  | .NewQERID => (T.QERID, .u32)
  /- /repo/ie/qfi.go:10-12. -/
  | .NewQFI => (T.QFI, .u8)
  /- /repo/ie/query-urr-reference.go:8-10. -/
  | .NewQueryURRReference => (T.QueryURRReference, .u32)
  /- /repo/ie/quota-holding-time.go:16-18. -/
  | .NewQuotaHoldingTime => (T.QuotaHoldingTime, .sec32)
  /- /repo/ie/quota-validity-time.go:14-16. -/
  | .NewQuotaValidityTime => (T.QuotaValidityTime, .sec32)
  /- /repo/ie/rds-configuration-information.go:8-10. -/
  | .NewRDSConfigurationInformation => (T.RDSConfigurationInformation, (.u8mask 0x01))
  /- /repo/ie/recovery-time-stamp.go:12-15. -/
  | .NewRecoveryTimeStamp => (T.RecoveryTimeStamp, .stamp)
  /- /repo/ie/reporting-triggers.go:12-14. -/
  | .NewReportingTriggers => (T.ReportingTriggers, .octets)
  /- /repo/ie/requested-access-availability-information.go:8-10. -/
  | .NewRequestedAccessAvailabilityInformation => (T.RequestedAccessAvailabilityInformation, (.u8mask 0x01))
  /- /repo/ie/rqi.go:8-10. -/
  | .NewRQI => (T.RQI, .u8)
  /- /repo/ie/sequence-number.go:8-10. -/
  | .NewSequenceNumber => (T.SequenceNumber, .u32)
  /- /repo/ie/smf-set-id.go:8-10. -/
  | .NewSMFSetID => (T.SMFSetID, .fqdn)
  /- /repo/ie/source-interface.go:17-19. -/
  | .NewSourceInterface => (T.SourceInterface, .u8)
  /- /repo/ie/srr-id.go:8-10. -/
  | .NewSRRID => (T.SRRID, .u8)
  /- /repo/ie/start-time.go:12-15. -/
  | .NewStartTime => (T.StartTime, .stamp)
  /- /repo/ie/steering-functionality.go:14-16. -/
  | .NewSteeringFunctionality => (T.SteeringFunctionality, (.u8mask 0x0f))
  /- /repo/ie/steering-mode.go:16-18. -/
  | .NewSteeringMode => (T.SteeringMode, (.u8mask 0x0f))
  /- /repo/ie/subsequent-event-quota.go:8-10. -/
  | .NewSubsequentEventQuota => (T.SubsequentEventQuota, .u32)
  /- /repo/ie/subsequent-event-threshold.go:8-10. -/
  | .NewSubsequentEventThreshold => (T.SubsequentEventThreshold, .u32)
  /- /repo/ie/subsequent-time-quota.go:15-17. -/
  | .NewSubsequentTimeQuota => (T.SubsequentTimeQuota, .sec32)
  /- /repo/ie/subsequent-time-threshold.go:14-16. -/
  | .NewSubsequentTimeThreshold => (T.SubsequentTimeThreshold, .sec32)
  /- /repo/ie/suggested-buffering-packets-count.go:8-10. -/
  | .NewSuggestedBufferingPacketsCount => (T.SuggestedBufferingPacketsCount, .u8)
  /- /repo/ie/tgpp-interface-type.go:35-37. -/
  | .NewTGPPInterfaceType => (T.TGPPInterfaceType, .u8)
  /- /repo/ie/time-of-first-packet.go:12-15. -/
  | .NewTimeOfFirstPacket => (T.TimeOfFirstPacket, .stamp)
  /- /repo/ie/time-of-last-packet.go:12-15. -/
  | .NewTimeOfLastPacket => (T.TimeOfLastPacket, .stamp)
  /- /repo/ie/time-offset-measurement.go:14-16. -/
  | .NewTimeOffsetMeasurement => (T.TimeOffsetMeasurement, .ns64)
  /- /repo/ie/time-offset-threshold.go:14-16. -/
  | .NewTimeOffsetThreshold => (T.TimeOffsetThreshold, .ns64)
  /- /repo/ie/time-quota.go:16-18. -/
  | .NewTimeQuota => (T.TimeQuota, .sec32)
  /- /repo/ie/time-threshold.go:14-16. -/
  | .NewTimeThreshold => (T.TimeThreshold, .sec32)
  /- /repo/ie/timer.go:14-52. -/
  | .NewTimer => (T.Timer, .timer)
  /- /repo/ie/traffic-endpoint-id.go:8-10. -/
  | .NewTrafficEndpointID => (T.TrafficEndpointID, .u8)
  /- /repo/ie/transport-level-marking.go:8-10. -/
  | .NewTransportLevelMarking => (T.TransportLevelMarking, .u16)
  /- /repo/ie/tsn-time-domain-number.go:8-10. -/
  | .NewTSNTimeDomainNumber => (T.TSNTimeDomainNumber, .u8)
  /- /repo/ie/ur-seqn.go:8-10. -/
  | .NewURSEQN => (T.URSEQN, .u32)
  /- /repo/ie/urr-id.go:8-10. -/
  | .NewURRID => (T.URRID, .u32)
  /- /repo/ie/usage-report-trigger.go:12-14. -/
  | .NewUsageReportTrigger => (T.UsageReportTrigger, .octets)
  /- /repo/ie/user-plane-inactivity-timer.go:16-18. -/
  | .NewUserPlaneInactivityTimer => (T.UserPlaneInactivityTimer, .sec32)
  /- /repo/ie/validity-timer.go:16-18. -/
  | .NewValidityTimer => (T.ValidityTimer, .sec16)
  /- /repo/ie/weight.go:8-10. -/
  | .NewWeight => (T.Weight, .u8)

end Pfcp
