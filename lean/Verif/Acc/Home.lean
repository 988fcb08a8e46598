/-
Specification for the accessor theorems, written from the names of the accessors and of the element types alone (the
table of cases in `Verif/Acc/Table.lean` is not used): the element types that carry the value an accessor is named
after. An accessor named like an element type belongs to that type. Where one accessor serves several types, or one
type several accessors, the names follow TS 29.244 (for instance `UsageReport` serves the three usage report types).
-/
import Verif.Acc.Table

namespace Pfcp

/-- The element types that carry the value of the accessor. -/
def Acc.home : Acc → List IEType
  | .AccessAvailabilityControlInformation => [T.AccessAvailabilityControlInformation]
  | .AccessAvailabilityInformation => [T.AccessAvailabilityInformation]
  | .AccessAvailabilityReport => [T.AccessAvailabilityReport]
  | .ActivatePredefinedRules => [T.ActivatePredefinedRules]
  | .ActivationTime => [T.ActivationTime]
  | .AdditionalMonitoringTime => [T.AdditionalMonitoringTime]
  | .AdditionalUsageReportsInformation => [T.AdditionalUsageReportsInformation]
  | .AggregatedURRID => [T.AggregatedURRID]
  | .AggregatedURRs => [T.AggregatedURRs]
  | .AlternativeSMFIPAddress => [T.AlternativeSMFIPAddress]
  | .APNDNN => [T.APNDNN]
  | .ApplicationDetectionInformation => [T.ApplicationDetectionInformation]
  | .ApplicationID => [T.ApplicationID]
  | .ApplicationIDsPFDs => [T.ApplicationIDsPFDs]
  | .ApplicationInstanceID => [T.ApplicationInstanceID]
  | .ApplyAction => [T.ApplyAction]
  | .ATSSSControlParameters => [T.ATSSSControlParameters]
  | .ATSSSLLControlInformation => [T.ATSSSLLControlInformation]
  | .ATSSSLLInformation => [T.ATSSSLLInformation]
  | .ATSSSLLParameters => [T.ATSSSLLParameters]
  | .AveragePacketDelay => [T.AveragePacketDelay]
  | .AveragingWindow => [T.AveragingWindow]
  | .BARID => [T.BARID]
  | .BridgeManagementInformationContainer => [T.BridgeManagementInformationContainer]
  | .CTAG => [T.CTAG, T.MACAddressesDetected, T.MACAddressesRemoved]
  | .Cause => [T.Cause]
  | .ClockDriftControlInformation => [T.ClockDriftControlInformation]
  | .ClockDriftReport => [T.ClockDriftReport]
  | .CPFunctionFeatures => [T.CPFunctionFeatures]
  | .CPPFCPEntityIPAddress => [T.CPPFCPEntityIPAddress]
  | .CreateBAR => [T.CreateBAR]
  | .CreateBridgeInfoForTSC => [T.CreateBridgeInfoForTSC]
  | .CreateFAR => [T.CreateFAR]
  | .CreateMAR => [T.CreateMAR]
  | .CreatePDR => [T.CreatePDR]
  | .CreateQER => [T.CreateQER]
  | .CreateSRR => [T.CreateSRR]
  | .CreateTrafficEndpoint => [T.CreateTrafficEndpoint]
  | .CreateURR => [T.CreateURR]
  | .CreatedBridgeInfoForTSC => [T.CreatedBridgeInfoForTSC]
  | .CreatedPDR => [T.CreatedPDR]
  | .CreatedTrafficEndpoint => [T.CreatedTrafficEndpoint]
  | .LocalFTEID => []
  | .CumulativeRateRatioMeasurement => [T.CumulativeRateRatioMeasurement]
  | .CumulativeRateRatioThreshold => [T.CumulativeRateRatioThreshold]
  | .DataNetworkAccessIdentifier => [T.DataNetworkAccessIdentifier]
  | .DataStatus => [T.DataStatus]
  | .DeactivatePredefinedRules => [T.DeactivatePredefinedRules]
  | .DeactivationTime => [T.DeactivationTime]
  | .DestinationInterface => [T.DestinationInterface]
  | .DLBufferingDuration => [T.DLBufferingDuration]
  | .DLBufferingSuggestedPacketCount => [T.DLBufferingSuggestedPacketCount]
  | .DLDataPacketsSize => [T.DLDataPacketsSize]
  | .DLFlowLevelMarking => [T.DLFlowLevelMarking]
  | .DownlinkDataNotificationDelay => [T.DownlinkDataNotificationDelay]
  | .DownlinkDataReport => [T.DownlinkDataReport]
  | .DownlinkDataServiceInformation => [T.DownlinkDataServiceInformation]
  | .PPI => [T.DownlinkDataServiceInformation]
  | .DroppedDLTrafficThreshold => [T.DroppedDLTrafficThreshold]
  | .DSTTPortNumber => [T.DSTTPortNumber]
  | .DuplicatingParameters => [T.DuplicatingParameters]
  | .DurationMeasurement => [T.DurationMeasurement]
  | .EndTime => [T.EndTime]
  | .ErrorIndicationReport => [T.ErrorIndicationReport]
  | .EthernetContextInformation => [T.EthernetContextInformation]
  | .EthernetFilterID => [T.EthernetFilterID]
  | .EthernetFilterProperties => [T.EthernetFilterProperties]
  | .EthernetInactivityTimer => [T.EthernetInactivityTimer]
  | .EthernetPacketFilter => [T.EthernetPacketFilter]
  | .EthernetPDUSessionInformation => [T.EthernetPDUSessionInformation]
  | .EthernetTrafficInformation => [T.EthernetTrafficInformation]
  | .Ethertype => [T.Ethertype]
  | .EventQuota => [T.EventQuota]
  | .EventThreshold => [T.EventThreshold]
  | .EventTimeStamp => [T.EventTimeStamp]
  | .FSEID => [T.FSEID]
  | .FTEID => [T.FTEID]
  | .RuleIDType => [T.FailedRuleID]
  | .FailedRuleID => [T.FailedRuleID]
  | .FARID => [T.FARID]
  | .FlowInformation => [T.FlowInformation]
  | .FlowDirection => [T.FlowInformation]
  | .FlowDescription => [T.FlowInformation]
  | .ForwardingParameters => [T.ForwardingParameters]
  | .ForwardingPolicy => [T.ForwardingPolicy]
  | .FQCSID => [T.FQCSID]
  | .NodeIDType => [T.FQCSID]
  | .NodeAddress => [T.FQCSID]
  | .CSIDs => [T.FQCSID]
  | .FramedIPv6Route => [T.FramedIPv6Route]
  | .FramedRoute => [T.FramedRoute]
  | .FramedRouting => [T.FramedRouting]
  | .GateStatus => [T.GateStatus]
  | .GBR => [T.GBR]
  | .GracefulReleasePeriod => [T.GracefulReleasePeriod]
  | .GTPUPathInterfaceType => [T.GTPUPathInterfaceType]
  | .GTPUPathQoSControlInformation => [T.GTPUPathQoSControlInformation]
  | .GTPUPathQoSReport => [T.GTPUPathQoSReport]
  | .HeaderEnrichment => [T.HeaderEnrichment]
  | .InactivityDetectionTime => [T.InactivityDetectionTime]
  | .IPMulticastAddress => [T.IPMulticastAddress]
  | .IPMulticastAddressingInfo => [T.IPMulticastAddressingInfo]
  | .IPVersion => [T.IPVersion]
  | .JoinIPMulticastInformationWithinUsageReport => [T.JoinIPMulticastInformationWithinUsageReport]
  | .LeaveIPMulticastInformationWithinUsageReport => [T.LeaveIPMulticastInformationWithinUsageReport]
  | .LinkedURRID => [T.LinkedURRID]
  | .LoadControlInformation => [T.LoadControlInformation]
  | .MACAddressesDetected => [T.MACAddressesDetected]
  | .MACAddressesRemoved => [T.MACAddressesRemoved]
  | .MACAddress => [T.MACAddress]
  | .MARID => [T.MARID]
  | .MaximumPacketDelay => [T.MaximumPacketDelay]
  | .MBR => [T.MBR]
  | .MeasurementInformation => [T.MeasurementInformation]
  | .MeasurementMethod => [T.MeasurementMethod]
  | .MeasurementPeriod => [T.MeasurementPeriod]
  | .Metric => [T.Metric]
  | .MinimumPacketDelay => [T.MinimumPacketDelay]
  | .MinimumWaitTime => [T.MinimumWaitTime]
  | .MonitoringTime => [T.MonitoringTime]
  | .MPTCPAddressInformation => [T.MPTCPAddressInformation]
  | .MPTCPApplicableIndication => [T.MPTCPApplicableIndication]
  | .MPTCPControlInformation => [T.MPTCPControlInformation]
  | .MPTCPParameters => [T.MPTCPParameters]
  | .MTEDTControlInformation => [T.MTEDTControlInformation]
  | .Multiplier => [T.Multiplier]
  | .ValueDigits => [T.Multiplier]
  | .Exponent => [T.Multiplier]
  | .NetworkInstance => [T.NetworkInstance]
  | .NFInstanceID => [T.NFInstanceID]
  | .NodeID => [T.NodeID]
  | .NodeReportType => [T.NodeReportType]
  | .NonTGPPAccessForwardingActionInformation => [T.NonTGPPAccessForwardingActionInformation]
  | .NumberOfReports => [T.NumberOfReports]
  | .NumberOfUEIPAddresses => [T.NumberOfUEIPAddresses]
  | .NWTTPortNumber => [T.NWTTPortNumber]
  | .OCIFlags => [T.OCIFlags]
  | .OffendingIE => [T.OffendingIE]
  | .OuterHeaderCreation => [T.OuterHeaderCreation]
  | .OuterHeaderRemoval => [T.OuterHeaderRemoval]
  | .OverloadControlInformation => [T.OverloadControlInformation]
  | .PacketDelayThresholds => [T.PacketDelayThresholds]
  | .PacketRateStatusReport => [T.PacketRateStatusReport, T.PacketRateStatusReportWithinSessionModificationResponse]
  | .PacketRateStatus => [T.PacketRateStatus]
  | .PacketRate => [T.PacketRate]
  | .PacketReplicationAndDetectionCarryOnInformation => [T.PacketReplicationAndDetectionCarryOnInformation]
  | .PagingPolicyIndicator => [T.PagingPolicyIndicator]
  | .PDI => [T.PDI]
  | .PDNType => [T.PDNType]
  | .PDRID => [T.PDRID]
  | .PFCPAssociationReleaseRequest => [T.PFCPAssociationReleaseRequest]
  | .PFCPSessionRetentionInformation => [T.PFCPSessionRetentionInformation]
  | .PFCPASReqFlags => [T.PFCPASReqFlags]
  | .PFCPASRspFlags => [T.PFCPASRspFlags]
  | .PFCPAUReqFlags => [T.PFCPAUReqFlags]
  | .PFCPSEReqFlags => [T.PFCPSEReqFlags]
  | .PFCPSMReqFlags => [T.PFCPSMReqFlags]
  | .PFCPSRReqFlags => [T.PFCPSRReqFlags]
  | .PFCPSRRspFlags => [T.PFCPSRRspFlags]
  | .PFDContents => [T.PFDContents]
  | .PFDContext => [T.PFDContext]
  | .PMFAddressInformation => [T.PMFAddressInformation]
  | .PMFControlInformation => [T.PMFControlInformation]
  | .PMFParameters => [T.PMFParameters]
  | .PortManagementInformationContainer => [T.PortManagementInformationContainer]
  | .Precedence => [T.Precedence]
  | .Priority => [T.Priority]
  | .ProvideATSSSControlInformation => [T.ProvideATSSSControlInformation]
  | .ProvideRDSConfigurationInformation => [T.ProvideRDSConfigurationInformation]
  | .Proxying => [T.Proxying]
  | .QERControlIndications => [T.QERControlIndications]
  | .QERCorrelationID => [T.QERCorrelationID]
  | .QERID => [T.QERID]
  | .QFI => [T.QFI, T.DownlinkDataServiceInformation]
  | .QoSInformationInGTPUPathQoSReport => [T.QoSInformationInGTPUPathQoSReport]
  | .QoSMonitoringMeasurement => [T.QoSMonitoringMeasurement]
  | .QoSMonitoringPerQoSFlowControlInformation => [T.QoSMonitoringPerQoSFlowControlInformation]
  | .QoSMonitoringReport => [T.QoSMonitoringReport]
  | .QoSReportTrigger => [T.QoSReportTrigger]
  | .QueryPacketRateStatus => [T.QueryPacketRateStatusWithinSessionModificationRequest]
  | .QueryURRReference => [T.QueryURRReference]
  | .QueryURR => [T.QueryURR]
  | .QuotaHoldingTime => [T.QuotaHoldingTime]
  | .QuotaValidityTime => [T.QuotaValidityTime]
  | .RDSConfigurationInformation => [T.RDSConfigurationInformation]
  | .RecoveryTimeStamp => [T.RecoveryTimeStamp]
  | .RedirectInformation => [T.RedirectInformation]
  | .RedundantTransmissionForwardingParameters => [T.RedundantTransmissionForwardingParameters]
  | .RedundantTransmissionParameters => [T.RedundantTransmissionParameters]
  | .RemoteGTPUPeer => [T.RemoteGTPUPeer]
  | .RemoveBAR => [T.RemoveBAR]
  | .RemoveFAR => [T.RemoveFAR]
  | .RemoveMAR => [T.RemoveMAR]
  | .RemovePDR => [T.RemovePDR]
  | .RemoveQER => [T.RemoveQER]
  | .RemoveSRR => [T.RemoveSRR]
  | .RemoveTrafficEndpoint => [T.RemoveTrafficEndpoint]
  | .RemoveURR => [T.RemoveURR]
  | .ReportType => [T.ReportType]
  | .ReportingFrequency => [T.ReportingFrequency]
  | .ReportingTriggers => [T.ReportingTriggers]
  | .RequestedAccessAvailabilityInformation => [T.RequestedAccessAvailabilityInformation]
  | .RequestedClockDriftInformation => [T.RequestedClockDriftInformation]
  | .RequestedQoSMonitoring => [T.RequestedQoSMonitoring]
  | .RQI => [T.RQI]
  | .SNSSAI => [T.SNSSAI]
  | .STAG => [T.STAG, T.MACAddressesDetected, T.MACAddressesRemoved]
  | .SDFFilter => [T.SDFFilter]
  | .SequenceNumber => [T.SequenceNumber]
  | .SessionReport => [T.SessionReport]
  | .SMFSetID => [T.SMFSetID]
  | .SourceInterface => [T.SourceInterface]
  | .SourceIPAddress => [T.SourceIPAddress]
  | .SRRID => [T.SRRID]
  | .StartTime => [T.StartTime]
  | .SteeringFunctionality => [T.SteeringFunctionality]
  | .SteeringMode => [T.SteeringMode]
  | .SubsequentEventQuota => [T.SubsequentEventQuota]
  | .SubsequentEventThreshold => [T.SubsequentEventThreshold]
  | .SubsequentTimeQuota => [T.SubsequentTimeQuota]
  | .SubsequentTimeThreshold => [T.SubsequentTimeThreshold]
  | .SubsequentVolumeQuota => [T.SubsequentVolumeQuota]
  | .SubsequentVolumeThreshold => [T.SubsequentVolumeThreshold]
  | .SuggestedBufferingPacketsCount => [T.SuggestedBufferingPacketsCount]
  | .TGPPAccessForwardingActionInformation => [T.TGPPAccessForwardingActionInformation]
  | .TGPPInterfaceType => [T.TGPPInterfaceType]
  | .TimeOfFirstPacket => [T.TimeOfFirstPacket]
  | .TimeOfLastPacket => [T.TimeOfLastPacket]
  | .TimeOffsetMeasurement => [T.TimeOffsetMeasurement]
  | .TimeOffsetThreshold => [T.TimeOffsetThreshold]
  | .TimeQuotaMechanism => [T.TimeQuotaMechanism]
  | .TimeQuota => [T.TimeQuota]
  | .TimeThreshold => [T.TimeThreshold]
  | .Timer => [T.Timer]
  | .TraceInformation => [T.TraceInformation]
  | .TrafficEndpointID => [T.TrafficEndpointID]
  | .TransportDelayReporting => [T.TransportDelayReporting]
  | .TransportLevelMarking => [T.TransportLevelMarking]
  | .TSCManagementInformation => [T.TSCManagementInformationWithinSessionModificationRequest, T.TSCManagementInformationWithinSessionModificationResponse, T.TSCManagementInformationWithinSessionReportRequest]
  | .PortManagementInformationForTSC => [T.TSCManagementInformationWithinSessionModificationRequest, T.TSCManagementInformationWithinSessionModificationResponse, T.TSCManagementInformationWithinSessionReportRequest]
  | .TSNBridgeID => [T.TSNBridgeID]
  | .TSNTimeDomainNumber => [T.TSNTimeDomainNumber]
  | .UEIPAddressPoolIdentity => [T.UEIPAddressPoolIdentity]
  | .UEIPAddressPoolInformation => [T.UEIPAddressPoolInformation]
  | .UEIPAddressUsageInformation => [T.UEIPAddressUsageInformation]
  | .UEIPAddress => [T.UEIPAddress]
  | .UELinkSpecificIPAddress => [T.UELinkSpecificIPAddress]
  | .UPFunctionFeatures => [T.UPFunctionFeatures]
  | .UpdateTGPPAccessForwardingActionInformation => [T.UpdateTGPPAccessForwardingActionInformation]
  | .UpdateBAR => [T.UpdateBARWithinSessionModificationRequest, T.UpdateBARWithinSessionReportResponse]
  | .UpdateDuplicatingParameters => [T.UpdateDuplicatingParameters]
  | .UpdateFAR => [T.UpdateFAR]
  | .UpdateForwardingParameters => [T.UpdateForwardingParameters]
  | .UpdateMAR => [T.UpdateMAR]
  | .UpdateNonTGPPAccessForwardingActionInformation => [T.UpdateNonTGPPAccessForwardingActionInformation]
  | .UpdatePDR => [T.UpdatePDR]
  | .UpdateQER => [T.UpdateQER]
  | .UpdateSRR => [T.UpdateSRR]
  | .UpdateTrafficEndpoint => [T.UpdateTrafficEndpoint]
  | .UpdateURR => [T.UpdateURR]
  | .UpdatedPDR => [T.UpdatedPDR]
  | .URSEQN => [T.URSEQN]
  | .URRID => [T.URRID]
  | .UsageInformation => [T.UsageInformation]
  | .UsageReportTrigger => [T.UsageReportTrigger]
  | .UsageReport => [T.UsageReportWithinSessionModificationResponse, T.UsageReportWithinSessionDeletionResponse, T.UsageReportWithinSessionReportRequest]
  | .UserID => [T.UserID]
  | .UserPlaneInactivityTimer => [T.UserPlaneInactivityTimer]
  | .UserPlaneIPResourceInformation => [T.UserPlaneIPResourceInformation]
  | .UserPlanePathFailureReport => [T.UserPlanePathFailureReport]
  | .UserPlanePathRecoveryReport => [T.UserPlanePathRecoveryReport]
  | .ValidityTimer => [T.ValidityTimer]
  | .VolumeMeasurement => [T.VolumeMeasurement]
  | .VolumeQuota => [T.VolumeQuota]
  | .VolumeThreshold => [T.VolumeThreshold]
  | .Weight => [T.Weight]

end Pfcp
