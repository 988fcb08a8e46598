/-
Specification for the constructor theorems, written from names alone: the accessor that reads what a constructor
stores is the one with the constructor's name.
-/
import Verif.Ctor.Table

namespace Pfcp

/-- `NewX` is read with `X`. `NewNetworkInstanceFQDN` makes a network instance as well. -/
def IECtor.acc : IECtor → Acc
  | .NewActivatePredefinedRules => .ActivatePredefinedRules
  | .NewActivationTime => .ActivationTime
  | .NewAggregatedURRID => .AggregatedURRID
  | .NewAPNDNN => .APNDNN
  | .NewApplicationID => .ApplicationID
  | .NewApplicationInstanceID => .ApplicationInstanceID
  | .NewApplyAction => .ApplyAction
  | .NewATSSSLLControlInformation => .ATSSSLLControlInformation
  | .NewATSSSLLInformation => .ATSSSLLInformation
  | .NewAveragePacketDelay => .AveragePacketDelay
  | .NewAveragingWindow => .AveragingWindow
  | .NewBARID => .BARID
  | .NewBridgeManagementInformationContainer => .BridgeManagementInformationContainer
  | .NewCause => .Cause
  | .NewCPFunctionFeatures => .CPFunctionFeatures
  | .NewCreateBridgeInfoForTSC => .CreateBridgeInfoForTSC
  | .NewCumulativeRateRatioMeasurement => .CumulativeRateRatioMeasurement
  | .NewCumulativeRateRatioThreshold => .CumulativeRateRatioThreshold
  | .NewDataNetworkAccessIdentifier => .DataNetworkAccessIdentifier
  | .NewDataStatus => .DataStatus
  | .NewDeactivatePredefinedRules => .DeactivatePredefinedRules
  | .NewDeactivationTime => .DeactivationTime
  | .NewDestinationInterface => .DestinationInterface
  | .NewDLBufferingDuration => .DLBufferingDuration
  | .NewDLDataPacketsSize => .DLDataPacketsSize
  | .NewDownlinkDataNotificationDelay => .DownlinkDataNotificationDelay
  | .NewDSTTPortNumber => .DSTTPortNumber
  | .NewDurationMeasurement => .DurationMeasurement
  | .NewEndTime => .EndTime
  | .NewEthernetFilterID => .EthernetFilterID
  | .NewEthernetFilterProperties => .EthernetFilterProperties
  | .NewEthernetInactivityTimer => .EthernetInactivityTimer
  | .NewEthernetPDUSessionInformation => .EthernetPDUSessionInformation
  | .NewEthertype => .Ethertype
  | .NewEventQuota => .EventQuota
  | .NewEventThreshold => .EventThreshold
  | .NewEventTimeStamp => .EventTimeStamp
  | .NewFARID => .FARID
  | .NewFramedIPv6Route => .FramedIPv6Route
  | .NewFramedRoute => .FramedRoute
  | .NewFramedRouting => .FramedRouting
  | .NewGracefulReleasePeriod => .GracefulReleasePeriod
  | .NewInactivityDetectionTime => .InactivityDetectionTime
  | .NewLinkedURRID => .LinkedURRID
  | .NewMARID => .MARID
  | .NewMaximumPacketDelay => .MaximumPacketDelay
  | .NewMeasurementInformation => .MeasurementInformation
  | .NewMeasurementPeriod => .MeasurementPeriod
  | .NewMetric => .Metric
  | .NewMinimumPacketDelay => .MinimumPacketDelay
  | .NewMinimumWaitTime => .MinimumWaitTime
  | .NewMonitoringTime => .MonitoringTime
  | .NewMPTCPApplicableIndication => .MPTCPApplicableIndication
  | .NewMPTCPControlInformation => .MPTCPControlInformation
  | .NewMTEDTControlInformation => .MTEDTControlInformation
  | .NewNetworkInstance => .NetworkInstance
  | .NewNetworkInstanceFQDN => .NetworkInstance
  | .NewNodeReportType => .NodeReportType
  | .NewNumberOfReports => .NumberOfReports
  | .NewNWTTPortNumber => .NWTTPortNumber
  | .NewOCIFlags => .OCIFlags
  | .NewOffendingIE => .OffendingIE
  | .NewPacketReplicationAndDetectionCarryOnInformation => .PacketReplicationAndDetectionCarryOnInformation
  | .NewPagingPolicyIndicator => .PagingPolicyIndicator
  | .NewPDNType => .PDNType
  | .NewPDRID => .PDRID
  | .NewPFCPASReqFlags => .PFCPASReqFlags
  | .NewPFCPASRspFlags => .PFCPASRspFlags
  | .NewPFCPAUReqFlags => .PFCPAUReqFlags
  | .NewPFCPSEReqFlags => .PFCPSEReqFlags
  | .NewPFCPSMReqFlags => .PFCPSMReqFlags
  | .NewPFCPSRReqFlags => .PFCPSRReqFlags
  | .NewPFCPSRRspFlags => .PFCPSRRspFlags
  | .NewPMFControlInformation => .PMFControlInformation
  | .NewPortManagementInformationContainer => .PortManagementInformationContainer
  | .NewPrecedence => .Precedence
  | .NewPriority => .Priority
  | .NewQERCorrelationID => .QERCorrelationID
  | .NewQERID => .QERID
  | .NewQFI => .QFI
  | .NewQueryURRReference => .QueryURRReference
  | .NewQuotaHoldingTime => .QuotaHoldingTime
  | .NewQuotaValidityTime => .QuotaValidityTime
  | .NewRDSConfigurationInformation => .RDSConfigurationInformation
  | .NewRecoveryTimeStamp => .RecoveryTimeStamp
  | .NewReportingTriggers => .ReportingTriggers
  | .NewRequestedAccessAvailabilityInformation => .RequestedAccessAvailabilityInformation
  | .NewRQI => .RQI
  | .NewSequenceNumber => .SequenceNumber
  | .NewSMFSetID => .SMFSetID
  | .NewSourceInterface => .SourceInterface
  | .NewSRRID => .SRRID
  | .NewStartTime => .StartTime
  | .NewSteeringFunctionality => .SteeringFunctionality
  | .NewSteeringMode => .SteeringMode
  | .NewSubsequentEventQuota => .SubsequentEventQuota
  | .NewSubsequentEventThreshold => .SubsequentEventThreshold
  | .NewSubsequentTimeQuota => .SubsequentTimeQuota
  | .NewSubsequentTimeThreshold => .SubsequentTimeThreshold
  | .NewSuggestedBufferingPacketsCount => .SuggestedBufferingPacketsCount
  | .NewTGPPInterfaceType => .TGPPInterfaceType
  | .NewTimeOfFirstPacket => .TimeOfFirstPacket
  | .NewTimeOfLastPacket => .TimeOfLastPacket
  | .NewTimeOffsetMeasurement => .TimeOffsetMeasurement
  | .NewTimeOffsetThreshold => .TimeOffsetThreshold
  | .NewTimeQuota => .TimeQuota
  | .NewTimeThreshold => .TimeThreshold
  | .NewTimer => .Timer
  | .NewTrafficEndpointID => .TrafficEndpointID
  | .NewTransportLevelMarking => .TransportLevelMarking
  | .NewTSNTimeDomainNumber => .TSNTimeDomainNumber
  | .NewURSEQN => .URSEQN
  | .NewURRID => .URRID
  | .NewUsageReportTrigger => .UsageReportTrigger
  | .NewUserPlaneInactivityTimer => .UserPlaneInactivityTimer
  | .NewValidityTimer => .ValidityTimer
  | .NewWeight => .Weight

/-- The bits of the octet that belong to the value, for elements with a one-octet value: one bit for the indications,
three bits for a paging policy indicator, four bits for a priority, a steering functionality or a steering mode, six
bits for a 3GPP interface type, and otherwise the octet (TS 29.244, section 8.2). -/
def IECtor.width : IECtor → UInt8
  | .NewATSSSLLControlInformation | .NewATSSSLLInformation | .NewCreateBridgeInfoForTSC | .NewMPTCPControlInformation
  | .NewMTEDTControlInformation | .NewPMFControlInformation | .NewRDSConfigurationInformation
  | .NewRequestedAccessAvailabilityInformation => 0x01
  | .NewPagingPolicyIndicator => 0x07
  | .NewPriority | .NewSteeringFunctionality | .NewSteeringMode => 0x0f
  | .NewTGPPInterfaceType => 0x3f
  | _ => 0xff

end Pfcp
