/-
C65: which groups the accessors and the flag functions look into, and for which children. The tables here are organised
by group and were collected from the case labels in /repo/ie independently of `Verif/Acc/Table.lean`, which is organised
by accessor.
-/
import Verif.Acc.Panics
import Verif.Flag.Props2

namespace Pfcp

/-- For each group, the accessors whose `switch i.Type` has a case for it with a loop over the children
(/repo/ie/*.go, e.g. far-id.go:18-27). 83 groups, 464 cases. -/
def groupReads : List (IEType × List Acc) := [
  (T.ATSSSControlParameters, [.ATSSSLLInformation, .ATSSSLLParameters, .MPTCPAddressInformation, .PMFAddressInformation, .PMFParameters,
    .UELinkSpecificIPAddress]),
  (T.ATSSSLLParameters, [.ATSSSLLInformation]),
  (T.AccessAvailabilityControlInformation, [.RequestedAccessAvailabilityInformation]),
  (T.AccessAvailabilityReport, [.AccessAvailabilityInformation]),
  (T.AdditionalMonitoringTime, [.EventQuota, .EventThreshold, .MonitoringTime, .SubsequentEventQuota, .SubsequentEventThreshold,
    .SubsequentTimeQuota, .SubsequentTimeThreshold, .SubsequentVolumeQuota, .SubsequentVolumeThreshold]),
  (T.AggregatedURRs, [.AggregatedURRID, .Multiplier, .ValueDigits, .Exponent]),
  (T.ApplicationDetectionInformation, [.ApplicationID, .ApplicationInstanceID, .FlowInformation, .FlowDirection, .FlowDescription, .PDRID]),
  (T.ApplicationIDsPFDs, [.ApplicationID, .PFDContents, .PFDContext]),
  (T.ClockDriftControlInformation, [.CumulativeRateRatioThreshold, .RequestedClockDriftInformation, .TimeOffsetThreshold, .TSNTimeDomainNumber]),
  (T.ClockDriftReport, [.CumulativeRateRatioThreshold, .EventTimeStamp, .TimeOffsetThreshold, .TSNTimeDomainNumber]),
  (T.CreateBAR, [.BARID, .DownlinkDataNotificationDelay, .MTEDTControlInformation, .SuggestedBufferingPacketsCount]),
  (T.CreateFAR, [.ApplyAction, .BARID, .DuplicatingParameters, .FARID, .ForwardingParameters,
    .RedundantTransmissionForwardingParameters, .RedundantTransmissionParameters]),
  (T.CreateMAR, [.FARID, .MARID, .NonTGPPAccessForwardingActionInformation, .Priority, .SteeringFunctionality, .SteeringMode,
    .TGPPAccessForwardingActionInformation, .URRID, .Weight]),
  (T.CreatePDR, [.ActivatePredefinedRules, .ActivationTime, .ApplicationID, .DeactivationTime, .EthernetPacketFilter,
    .EthernetPDUSessionInformation, .FARID, .IPMulticastAddress, .IPMulticastAddressingInfo, .MARID,
    .MPTCPApplicableIndication, .OuterHeaderRemoval, .PacketReplicationAndDetectionCarryOnInformation, .PDI, .PDRID,
    .Precedence, .QERID, .RedundantTransmissionParameters, .SDFFilter, .SourceInterface, .SourceIPAddress,
    .TrafficEndpointID, .TransportDelayReporting, .UEIPAddressPoolIdentity, .UEIPAddress, .URRID]),
  (T.CreateQER, [.AveragingWindow, .DLFlowLevelMarking, .GateStatus, .GBR, .MBR, .PacketRateStatus, .PacketRate,
    .PagingPolicyIndicator, .QERControlIndications, .QERCorrelationID, .QERID, .QFI, .RQI]),
  (T.CreateSRR, [.AccessAvailabilityControlInformation, .QoSMonitoringPerQoSFlowControlInformation, .SRRID]),
  (T.CreateTrafficEndpoint, [.EthernetPDUSessionInformation, .FTEID, .FramedIPv6Route, .FramedRoute, .FramedRouting, .NetworkInstance, .QFI,
    .RedundantTransmissionParameters, .TrafficEndpointID, .UEIPAddress]),
  (T.CreateURR, [.AdditionalMonitoringTime, .AggregatedURRs, .DroppedDLTrafficThreshold, .EthernetInactivityTimer, .EventQuota,
    .EventThreshold, .FARID, .InactivityDetectionTime, .LinkedURRID, .MeasurementInformation, .MeasurementMethod,
    .MeasurementPeriod, .MonitoringTime, .NumberOfReports, .QuotaHoldingTime, .QuotaValidityTime, .ReportingTriggers,
    .SubsequentEventQuota, .SubsequentEventThreshold, .SubsequentTimeQuota, .SubsequentTimeThreshold,
    .SubsequentVolumeQuota, .SubsequentVolumeThreshold, .TimeQuotaMechanism, .TimeQuota, .TimeThreshold, .URRID,
    .VolumeQuota, .VolumeThreshold]),
  (T.CreatedBridgeInfoForTSC, [.DSTTPortNumber, .NWTTPortNumber, .TSNBridgeID]),
  (T.CreatedPDR, [.FTEID, .PDRID, .UEIPAddress]),
  (T.CreatedTrafficEndpoint, [.LocalFTEID, .TrafficEndpointID, .UEIPAddress]),
  (T.DownlinkDataReport, [.DataStatus, .DLDataPacketsSize, .DownlinkDataServiceInformation, .PDRID]),
  (T.DuplicatingParameters, [.DestinationInterface, .ForwardingPolicy, .OuterHeaderCreation, .TransportLevelMarking]),
  (T.ErrorIndicationReport, [.FTEID]),
  (T.EthernetContextInformation, [.CTAG, .MACAddressesDetected, .STAG]),
  (T.EthernetPacketFilter, [.CTAG, .EthernetFilterID, .EthernetFilterProperties, .Ethertype, .MACAddress, .NFInstanceID, .STAG, .SDFFilter]),
  (T.EthernetTrafficInformation, [.MACAddressesDetected, .MACAddressesRemoved]),
  (T.ForwardingParameters, [.DataNetworkAccessIdentifier, .DestinationInterface, .ForwardingPolicy, .HeaderEnrichment, .NetworkInstance,
    .OuterHeaderCreation, .PFCPSMReqFlags, .Proxying, .RedirectInformation, .TGPPInterfaceType, .TrafficEndpointID,
    .TransportLevelMarking]),
  (T.GTPUPathQoSControlInformation, [.AveragePacketDelay, .GTPUPathInterfaceType, .MaximumPacketDelay, .MeasurementMethod, .MinimumPacketDelay,
    .QoSReportTrigger, .RemoteGTPUPeer, .Timer, .TransportLevelMarking]),
  (T.GTPUPathQoSReport, [.AveragePacketDelay, .EventTimeStamp, .GTPUPathInterfaceType, .MaximumPacketDelay, .MinimumPacketDelay,
    .QoSInformationInGTPUPathQoSReport, .QoSReportTrigger, .RemoteGTPUPeer, .StartTime, .TransportLevelMarking]),
  (T.IPMulticastAddressingInfo, [.IPMulticastAddress, .SourceIPAddress]),
  (T.JoinIPMulticastInformationWithinUsageReport, [.IPMulticastAddress, .SourceIPAddress]),
  (T.LeaveIPMulticastInformationWithinUsageReport, [.IPMulticastAddress, .SourceIPAddress]),
  (T.LoadControlInformation, [.Metric, .SequenceNumber]),
  (T.MPTCPParameters, [.MPTCPAddressInformation, .UELinkSpecificIPAddress]),
  (T.NonTGPPAccessForwardingActionInformation, [.FARID, .Priority, .URRID, .Weight]),
  (T.OverloadControlInformation, [.Metric, .OCIFlags, .SequenceNumber, .Timer]),
  (T.PDI, [.ApplicationID, .CTAG, .EthernetFilterID, .EthernetFilterProperties, .EthernetPacketFilter,
    .EthernetPDUSessionInformation, .Ethertype, .FTEID, .MACAddress, .NetworkInstance,
    .RedundantTransmissionParameters, .STAG, .SDFFilter, .SourceInterface, .TrafficEndpointID, .UEIPAddress]),
  (T.PFCPSessionRetentionInformation, [.CPPFCPEntityIPAddress]),
  (T.PFDContext, [.PFDContents]),
  (T.PMFParameters, [.PMFAddressInformation]),
  (T.PacketRateStatusReport, [.PacketRateStatus, .QERID]),
  (T.ProvideATSSSControlInformation, [.ATSSSLLControlInformation, .MPTCPControlInformation, .PMFControlInformation]),
  (T.ProvideRDSConfigurationInformation, [.RDSConfigurationInformation]),
  (T.QoSInformationInGTPUPathQoSReport, [.AveragePacketDelay, .MaximumPacketDelay, .MinimumPacketDelay, .TransportLevelMarking]),
  (T.QoSMonitoringPerQoSFlowControlInformation, [.MeasurementPeriod, .MinimumWaitTime, .PacketDelayThresholds, .QFI, .ReportingFrequency, .RequestedQoSMonitoring]),
  (T.QoSMonitoringReport, [.EventTimeStamp, .QFI, .QoSMonitoringMeasurement, .StartTime]),
  (T.QueryURR, [.URRID]),
  (T.RedundantTransmissionParameters, [.FTEID, .NetworkInstance, .OuterHeaderCreation]),
  (T.RemoveBAR, [.BARID]),
  (T.RemoveFAR, [.FARID]),
  (T.RemoveMAR, [.MARID]),
  (T.RemovePDR, [.PDRID]),
  (T.RemoveQER, [.QERID]),
  (T.RemoveSRR, [.SRRID]),
  (T.RemoveTrafficEndpoint, [.TrafficEndpointID]),
  (T.RemoveURR, [.URRID]),
  (T.SessionReport, [.AccessAvailabilityControlInformation, .QoSMonitoringReport, .SRRID]),
  (T.TGPPAccessForwardingActionInformation, [.FARID, .Priority, .URRID, .Weight]),
  (T.TSCManagementInformationWithinSessionModificationRequest, [.BridgeManagementInformationContainer, .PortManagementInformationContainer]),
  (T.TSCManagementInformationWithinSessionModificationResponse, [.BridgeManagementInformationContainer, .PortManagementInformationContainer]),
  (T.TSCManagementInformationWithinSessionReportRequest, [.BridgeManagementInformationContainer, .PortManagementInformationContainer]),
  (T.UEIPAddressPoolInformation, [.IPVersion, .NetworkInstance, .SNSSAI, .UEIPAddressPoolIdentity]),
  (T.UEIPAddressUsageInformation, [.NumberOfUEIPAddresses, .ValidityTimer]),
  (T.UpdateBARWithinSessionModificationRequest, [.BARID, .DownlinkDataNotificationDelay, .SuggestedBufferingPacketsCount]),
  (T.UpdateBARWithinSessionReportResponse, [.BARID, .DLBufferingDuration, .DLBufferingSuggestedPacketCount, .DownlinkDataNotificationDelay,
    .SuggestedBufferingPacketsCount]),
  (T.UpdateDuplicatingParameters, [.DestinationInterface, .ForwardingPolicy, .OuterHeaderCreation, .TransportLevelMarking]),
  (T.UpdateFAR, [.ApplyAction, .BARID, .FARID, .RedundantTransmissionParameters, .UpdateDuplicatingParameters,
    .UpdateForwardingParameters]),
  (T.UpdateForwardingParameters, [.DataNetworkAccessIdentifier, .DestinationInterface, .ForwardingPolicy, .HeaderEnrichment, .NetworkInstance,
    .OuterHeaderCreation, .PFCPSMReqFlags, .Proxying, .RedirectInformation, .TGPPInterfaceType, .TrafficEndpointID,
    .TransportLevelMarking]),
  (T.UpdateMAR, [.FARID, .MARID, .NonTGPPAccessForwardingActionInformation, .Priority, .SteeringFunctionality, .SteeringMode,
    .TGPPAccessForwardingActionInformation, .UpdateTGPPAccessForwardingActionInformation,
    .UpdateNonTGPPAccessForwardingActionInformation, .URRID, .Weight]),
  (T.UpdateNonTGPPAccessForwardingActionInformation, [.FARID, .Priority, .URRID, .Weight]),
  (T.UpdatePDR, [.ActivatePredefinedRules, .ActivationTime, .DeactivatePredefinedRules, .DeactivationTime, .FARID,
    .IPMulticastAddress, .IPMulticastAddressingInfo, .OuterHeaderRemoval, .PDI, .PDRID, .Precedence, .QERID,
    .SourceInterface, .TransportDelayReporting, .URRID]),
  (T.UpdateQER, [.AveragingWindow, .DLFlowLevelMarking, .GateStatus, .GBR, .MBR, .PacketRateStatus, .PacketRate,
    .PagingPolicyIndicator, .QERControlIndications, .QERCorrelationID, .QERID, .QFI, .RQI]),
  (T.UpdateSRR, [.AccessAvailabilityControlInformation, .QoSMonitoringPerQoSFlowControlInformation, .SRRID]),
  (T.UpdateTGPPAccessForwardingActionInformation, [.FARID, .Priority, .URRID, .Weight]),
  (T.UpdateTrafficEndpoint, [.FTEID, .FramedIPv6Route, .FramedRoute, .FramedRouting, .NetworkInstance, .QFI, .RedundantTransmissionParameters,
    .TrafficEndpointID, .UEIPAddress]),
  (T.UpdateURR, [.AdditionalMonitoringTime, .AggregatedURRs, .DroppedDLTrafficThreshold, .EthernetInactivityTimer, .EventQuota,
    .EventThreshold, .FARID, .InactivityDetectionTime, .LinkedURRID, .MeasurementInformation, .MeasurementMethod,
    .MeasurementPeriod, .MonitoringTime, .NumberOfReports, .QuotaHoldingTime, .QuotaValidityTime, .ReportingTriggers,
    .SubsequentEventQuota, .SubsequentEventThreshold, .SubsequentTimeQuota, .SubsequentTimeThreshold,
    .SubsequentVolumeQuota, .SubsequentVolumeThreshold, .TimeQuotaMechanism, .TimeQuota, .TimeThreshold, .URRID,
    .VolumeQuota, .VolumeThreshold]),
  (T.UpdatedPDR, [.FTEID, .PDRID]),
  (T.UsageReportWithinSessionDeletionResponse, [.ApplicationDetectionInformation, .DurationMeasurement, .EndTime, .EthernetTrafficInformation,
    .MACAddressesDetected, .MACAddressesRemoved, .StartTime, .TimeOfFirstPacket, .TimeOfLastPacket, .URSEQN, .URRID,
    .UsageInformation, .UsageReportTrigger, .VolumeMeasurement]),
  (T.UsageReportWithinSessionModificationResponse, [.ApplicationDetectionInformation, .DurationMeasurement, .EndTime, .EthernetTrafficInformation,
    .MACAddressesDetected, .MACAddressesRemoved, .QueryURRReference, .StartTime, .TimeOfFirstPacket,
    .TimeOfLastPacket, .URSEQN, .URRID, .UsageInformation, .UsageReportTrigger, .VolumeMeasurement]),
  (T.UsageReportWithinSessionReportRequest, [.ApplicationDetectionInformation, .ApplicationID, .ApplicationInstanceID, .DurationMeasurement, .EndTime,
    .EthernetTrafficInformation, .EventTimeStamp, .FlowInformation, .JoinIPMulticastInformationWithinUsageReport,
    .LeaveIPMulticastInformationWithinUsageReport, .MACAddressesDetected, .MACAddressesRemoved, .PDRID,
    .QueryURRReference, .StartTime, .TimeOfFirstPacket, .TimeOfLastPacket, .UEIPAddress, .URSEQN, .URRID,
    .UsageInformation, .UsageReportTrigger, .VolumeMeasurement]),
  (T.UserPlanePathFailureReport, [.RemoteGTPUPeer]),
  (T.UserPlanePathRecoveryReport, [.RemoteGTPUPeer])]

/-- The children looked for, where these are not all the types the accessor is about: mostly because the value sits one
level further down (e.g. /repo/ie/sdf-filter.go, case CreatePDR). The entry for the network instance in a PDI is empty:
the inner switch of /repo/ie/network-instance.go looks at the type of the PDI. -/
def groupVia : List ((IEType × Acc) × List IEType) := [
  ((T.CreatePDR, .ApplicationID), [T.PDI]),
  ((T.UsageReportWithinSessionReportRequest, .ApplicationID), [T.ApplicationDetectionInformation]),
  ((T.UsageReportWithinSessionReportRequest, .ApplicationInstanceID), [T.ApplicationDetectionInformation]),
  ((T.ATSSSControlParameters, .ATSSSLLInformation), [T.ATSSSLLParameters]),
  ((T.PDI, .CTAG), [T.EthernetPacketFilter]),
  ((T.EthernetPacketFilter, .CTAG), [T.CTAG]),
  ((T.EthernetContextInformation, .CTAG), [T.MACAddressesDetected]),
  ((T.CreatedTrafficEndpoint, .LocalFTEID), [T.FTEID]),
  ((T.PDI, .EthernetFilterID), [T.EthernetPacketFilter]),
  ((T.CreatePDR, .EthernetPacketFilter), [T.PDI]),
  ((T.CreatePDR, .EthernetPDUSessionInformation), [T.PDI]),
  ((T.PDI, .FTEID), [T.FTEID, T.RedundantTransmissionParameters]),
  ((T.CreateMAR, .FARID), [T.TGPPAccessForwardingActionInformation, T.NonTGPPAccessForwardingActionInformation]),
  ((T.UpdateMAR, .FARID), [T.TGPPAccessForwardingActionInformation, T.NonTGPPAccessForwardingActionInformation]),
  ((T.UsageReportWithinSessionReportRequest, .FlowInformation), [T.ApplicationDetectionInformation]),
  ((T.CreatePDR, .IPMulticastAddress), [T.IPMulticastAddressingInfo]),
  ((T.UpdatePDR, .IPMulticastAddress), [T.IPMulticastAddressingInfo]),
  ((T.UsageReportWithinSessionModificationResponse, .MACAddressesDetected), [T.EthernetTrafficInformation]),
  ((T.UsageReportWithinSessionDeletionResponse, .MACAddressesDetected), [T.EthernetTrafficInformation]),
  ((T.UsageReportWithinSessionReportRequest, .MACAddressesDetected), [T.EthernetTrafficInformation]),
  ((T.UsageReportWithinSessionModificationResponse, .MACAddressesRemoved), [T.EthernetTrafficInformation]),
  ((T.UsageReportWithinSessionDeletionResponse, .MACAddressesRemoved), [T.EthernetTrafficInformation]),
  ((T.UsageReportWithinSessionReportRequest, .MACAddressesRemoved), [T.EthernetTrafficInformation]),
  ((T.PDI, .MACAddress), [T.EthernetPacketFilter]),
  ((T.ATSSSControlParameters, .MPTCPAddressInformation), [T.MPTCPParameters]),
  ((T.PDI, .NetworkInstance), []),
  ((T.UsageReportWithinSessionReportRequest, .PDRID), [T.ApplicationDetectionInformation]),
  ((T.ApplicationIDsPFDs, .PFDContents), [T.PFDContext]),
  ((T.ATSSSControlParameters, .PMFAddressInformation), [T.PMFParameters]),
  ((T.CreateMAR, .Priority), [T.TGPPAccessForwardingActionInformation, T.NonTGPPAccessForwardingActionInformation]),
  ((T.UpdateMAR, .Priority), [T.TGPPAccessForwardingActionInformation, T.NonTGPPAccessForwardingActionInformation]),
  ((T.CreateQER, .QFI), [T.QFI]),
  ((T.UpdateQER, .QFI), [T.QFI]),
  ((T.CreateTrafficEndpoint, .QFI), [T.QFI]),
  ((T.UpdateTrafficEndpoint, .QFI), [T.QFI]),
  ((T.QoSMonitoringPerQoSFlowControlInformation, .QFI), [T.QFI]),
  ((T.QoSMonitoringReport, .QFI), [T.QFI]),
  ((T.CreatePDR, .RedundantTransmissionParameters), [T.PDI]),
  ((T.PDI, .STAG), [T.EthernetPacketFilter]),
  ((T.EthernetPacketFilter, .STAG), [T.STAG]),
  ((T.EthernetContextInformation, .STAG), [T.MACAddressesDetected]),
  ((T.CreatePDR, .SDFFilter), [T.PDI]),
  ((T.CreatePDR, .SourceInterface), [T.PDI]),
  ((T.UpdatePDR, .SourceInterface), [T.PDI]),
  ((T.CreatePDR, .SourceIPAddress), [T.IPMulticastAddressingInfo]),
  ((T.CreatePDR, .TrafficEndpointID), [T.PDI]),
  ((T.CreatePDR, .UEIPAddress), [T.PDI]),
  ((T.ATSSSControlParameters, .UELinkSpecificIPAddress), [T.MPTCPParameters]),
  ((T.CreateMAR, .URRID), [T.TGPPAccessForwardingActionInformation, T.NonTGPPAccessForwardingActionInformation]),
  ((T.UpdateMAR, .URRID), [T.TGPPAccessForwardingActionInformation, T.NonTGPPAccessForwardingActionInformation]),
  ((T.CreateMAR, .Weight), [T.TGPPAccessForwardingActionInformation, T.NonTGPPAccessForwardingActionInformation]),
  ((T.UpdateMAR, .Weight), [T.TGPPAccessForwardingActionInformation, T.NonTGPPAccessForwardingActionInformation])]

/-- What is looked for in a group. -/
def looksFor (a : Acc) (t : IEType) : List IEType :=
  match groupVia.lookup (t, a) with
  | some l => l
  | none => a.home

/-- The accessors that read values in groups of type `t`. -/
def readsIn (t : IEType) : List Acc :=
  match groupReads.lookup t with
  | some l => l
  | none => []

/-- `decide`able form of the table theorem. -/
def groupsOk (a : Acc) : Bool :=
  a.table.cases.all (fun c => !a.descends c.1 || (readsIn c.1).contains a && decide (a.searched c.1 = looksFor a c.1)) &&
  groupReads.all (fun r => !r.2.contains a || a.descends r.1)

theorem groupsOk_all (a : Acc) : groupsOk a = true := forall_acc (p := groupsOk) (by decide +kernel) a

theorem descends_cases {a : Acc} {t : IEType} (h : a.descends t = true) : ∃ c ∈ a.table.cases, c.1 = t := by
  unfold Acc.descends at h
  split at h
  · rename_i hl; exact ⟨_, lookup_mem hl, rfl⟩
  · cases h

/-- C65: an accessor looks into a group if and only if the table says so. -/
theorem C65_groups (a : Acc) (t : IEType) : a.descends t = true ↔ a ∈ readsIn t := by
  have h := groupsOk_all a
  unfold groupsOk at h
  simp only [Bool.and_eq_true, List.all_eq_true, Bool.or_eq_true] at h
  constructor
  · intro hd
    obtain ⟨c, hc, rfl⟩ := descends_cases hd
    have := h.1 c hc
    rw [hd] at this
    simpa using (this.resolve_left (by simp)).1
  · intro hm
    unfold readsIn at hm
    split at hm
    · rename_i l hl
      have := h.2 _ (lookup_mem hl)
      have hc : l.contains a = true := by simpa using hm
      rw [hc] at this
      simpa using this
    · cases hm

/-- C65: and looks for these children. -/
theorem C65_searched (a : Acc) (t : IEType) (hd : a.descends t = true) : a.searched t = looksFor a t := by
  have h := groupsOk_all a
  unfold groupsOk at h
  simp only [Bool.and_eq_true, List.all_eq_true, Bool.or_eq_true] at h
  obtain ⟨c, hc, rfl⟩ := descends_cases hd
  have := h.1 c hc
  rw [hd] at this
  simpa using (this.resolve_left (by simp)).2

example : Acc.FARID ∈ readsIn T.CreateFAR ∧ looksFor .FARID T.CreateFAR = [T.FARID] := by decide +kernel

/-- C65: what an accessor answers to a group, for every accessor and every type that is not its own: the first child the
table names is asked, and a group that is not in the table is refused. -/
theorem C65_reads (g : IEType → Bool) (mem : IE → Bytes) (a : Acc) (i : IE) (ht : i.typ ∉ a.home)
    (hx : a = .FTEID → i.typ ≠ T.CreatedTrafficEndpoint) (hl : firstCheck a ≤ i.payload.length) :
    a.call g mem i =
      if a ∈ readsIn i.typ then
        match parseMulti g i.payload with
        | .panic => .panic
        | .err e => .err e
        | .ok cs =>
          match cs.find? (fun c => (looksFor a i.typ).contains c.typ) with
          | none => .err .ieNotFound
          | some c => a.onChild.call g mem c
      else .err (.invalidTypeError i.typ) := by
  split
  · rename_i h
    have hd := (C65_groups a i.typ).2 h
    rw [C38_exact g mem a i hd, if_neg (by omega), C65_searched a i.typ hd]
    rfl
  · rename_i h
    have hh : a.handles i.typ = false := by
      cases hh : a.handles i.typ with
      | false => rfl
      | true =>
        exfalso
        have key := forall_acc (p := fun a => a.table.cases.all fun c => a.home.contains c.1 || (readsIn c.1).contains a ||
          decide (a = .FTEID ∧ c.1 = T.CreatedTrafficEndpoint))
          (by decide +kernel) a
        unfold Acc.handles at hh
        obtain ⟨b, hb⟩ := Option.isSome_iff_exists.1 hh
        have := List.all_eq_true.1 key _ (lookup_mem hb)
        simp only [Bool.or_eq_true, List.contains_iff_mem, decide_eq_true_eq] at this
        exact this.elim (fun o => o.elim ht h) (fun o => hx o.1 o.2)
    rw [C37_exact g mem a i hh, if_neg (by omega)]

/-- `FTEID` sends the user of a created traffic endpoint to `LocalFTEID`, with an error (/repo/ie/f-teid.go:81-82). -/
theorem C65_created_traffic_endpoint (g : IEType → Bool) (mem : IE → Bytes) (i : IE)
    (ht : i.typ = T.CreatedTrafficEndpoint) : Acc.FTEID.call g mem i = .err .ambiguous := by
  rw [call_eq, if_neg (by rw [pre_eq]; exact Nat.not_lt_zero _), ht]
  rfl

example : T.CreateFAR ∉ Acc.FARID.home ∧ firstCheck .FARID ≤ 0 := by decide +kernel

/-! ### Groups that carry the same values -/

/-- Pairs of groups that carry the same kinds of values: the update of something and its creation, the two accesses, the
joining and leaving of a multicast, the management information in the three messages. -/
def siblings : List (IEType × IEType) := [
  (T.CreatePDR, T.UpdatePDR), (T.CreateFAR, T.UpdateFAR), (T.CreateURR, T.UpdateURR), (T.CreateQER, T.UpdateQER),
  (T.CreateMAR, T.UpdateMAR), (T.CreateSRR, T.UpdateSRR), (T.CreateTrafficEndpoint, T.UpdateTrafficEndpoint),
  (T.CreateBAR, T.UpdateBARWithinSessionModificationRequest),
  (T.ForwardingParameters, T.UpdateForwardingParameters), (T.DuplicatingParameters, T.UpdateDuplicatingParameters),
  (T.TGPPAccessForwardingActionInformation, T.UpdateTGPPAccessForwardingActionInformation),
  (T.NonTGPPAccessForwardingActionInformation, T.UpdateNonTGPPAccessForwardingActionInformation),
  (T.TGPPAccessForwardingActionInformation, T.NonTGPPAccessForwardingActionInformation),
  (T.JoinIPMulticastInformationWithinUsageReport, T.LeaveIPMulticastInformationWithinUsageReport),
  (T.TSCManagementInformationWithinSessionModificationRequest, T.TSCManagementInformationWithinSessionModificationResponse),
  (T.TSCManagementInformationWithinSessionModificationRequest, T.TSCManagementInformationWithinSessionReportRequest),
  (T.UsageReportWithinSessionModificationResponse, T.UsageReportWithinSessionDeletionResponse),
  (T.UsageReportWithinSessionModificationResponse, T.UsageReportWithinSessionReportRequest),
  (T.UserPlanePathFailureReport, T.UserPlanePathRecoveryReport)]

/-- The accessors that treat the two groups of a pair differently. -/
def unlike : List ((IEType × IEType) × List Acc) := [
  ((T.CreatePDR, T.UpdatePDR),
    [.ApplicationID, .EthernetPDUSessionInformation, .EthernetPacketFilter, .MARID, .MPTCPApplicableIndication,
      .PacketReplicationAndDetectionCarryOnInformation, .RedundantTransmissionParameters, .SDFFilter, .SourceIPAddress,
      .TrafficEndpointID, .UEIPAddress, .UEIPAddressPoolIdentity, .DeactivatePredefinedRules]),
  ((T.CreateFAR, T.UpdateFAR),
    [.DuplicatingParameters, .ForwardingParameters, .RedundantTransmissionForwardingParameters,
      .UpdateDuplicatingParameters, .UpdateForwardingParameters]),
  ((T.CreateMAR, T.UpdateMAR),
    [.UpdateNonTGPPAccessForwardingActionInformation, .UpdateTGPPAccessForwardingActionInformation]),
  ((T.CreateTrafficEndpoint, T.UpdateTrafficEndpoint), [.EthernetPDUSessionInformation]),
  ((T.CreateBAR, T.UpdateBARWithinSessionModificationRequest), [.MTEDTControlInformation]),
  ((T.UsageReportWithinSessionModificationResponse, T.UsageReportWithinSessionDeletionResponse), [.QueryURRReference]),
  ((T.UsageReportWithinSessionModificationResponse, T.UsageReportWithinSessionReportRequest),
    [.ApplicationID, .ApplicationInstanceID, .EventTimeStamp, .FlowInformation,
      .JoinIPMulticastInformationWithinUsageReport, .LeaveIPMulticastInformationWithinUsageReport, .PDRID,
      .UEIPAddress])]

/-- The exceptions of a pair. -/
def unlikeIn (t u : IEType) : List Acc :=
  match unlike.lookup (t, u) with
  | some l => l
  | none => []

/-- `decide`able form. -/
def siblingsOk (a : Acc) : Bool := siblings.all fun p =>
  if (unlikeIn p.1 p.2).contains a then decide (a.descends p.1 = !a.descends p.2) && !(a.handles p.1 && a.handles p.2)
  else decide (a.descends p.1 = a.descends p.2) && (!a.descends p.1 || decide (a.searched p.1 = a.searched p.2))

theorem siblingsOk_all (a : Acc) : siblingsOk a = true := forall_acc (p := siblingsOk) (by decide +kernel) a

/-- C65: groups of a pair with the same contents give the same answers, except to the accessors listed. -/
theorem C65_siblings_partial (g : IEType → Bool) (mem : IE → Bytes) (a : Acc) (i j : IE)
    (hp : (i.typ, j.typ) ∈ siblings) (ha : a ∉ unlikeIn i.typ j.typ) (hd : a.descends i.typ = true)
    (he : i.payload = j.payload) : a.call g mem i = a.call g mem j := by
  have h := List.all_eq_true.1 (by have := siblingsOk_all a; unfold siblingsOk at this; exact this) _ hp
  dsimp only at h
  have hc : (unlikeIn i.typ j.typ).contains a = false := by simpa using ha
  rw [hc] at h
  simp only [Bool.false_eq_true, if_false, Bool.and_eq_true, decide_eq_true_eq, hd, Bool.not_true, Bool.false_or] at h
  rw [C38_exact g mem a i hd, C38_exact g mem a j h.1.symm, he, h.2]

example : (T.CreateURR, T.UpdateURR) ∈ siblings ∧ Acc.URRID ∉ unlikeIn T.CreateURR T.UpdateURR ∧
    Acc.URRID.descends T.CreateURR = true := by decide +kernel

/-- C65: the accessors listed work on one group of the pair and refuse the other. -/
theorem C65_siblings_violated (g : IEType → Bool) (mem : IE → Bytes) (a : Acc) (i j : IE)
    (hp : (i.typ, j.typ) ∈ siblings) (ha : a ∈ unlikeIn i.typ j.typ)
    (hli : firstCheck a ≤ i.payload.length) (hlj : firstCheck a ≤ j.payload.length) :
    (a ∈ readsIn i.typ ∧ a.call g mem j = .err (.invalidTypeError j.typ)) ∨
    (a ∈ readsIn j.typ ∧ a.call g mem i = .err (.invalidTypeError i.typ)) := by
  have h := List.all_eq_true.1 (by have := siblingsOk_all a; unfold siblingsOk at this; exact this) _ hp
  dsimp only at h
  have hc : (unlikeIn i.typ j.typ).contains a = true := by simpa using ha
  rw [hc] at h
  simp only [if_true, Bool.and_eq_true, decide_eq_true_eq, Bool.not_eq_true', Bool.and_eq_false_iff] at h
  have hdh : ∀ t, a.descends t = true → a.handles t = true := by
    intro t hd
    unfold Acc.descends at hd
    unfold Acc.handles
    split at hd
    · rename_i hl; rw [hl]; rfl
    · cases hd
  cases hi : a.descends i.typ with
  | true =>
    left
    refine ⟨(C65_groups a _).1 hi, ?_⟩
    have := h.2.resolve_left (by rw [hdh _ hi]; simp)
    rw [C37_exact g mem a j this, if_neg (by omega)]
  | false =>
    right
    rw [hi] at h
    have hj : a.descends j.typ = true := by simpa using h.1
    refine ⟨(C65_groups a _).1 hj, ?_⟩
    have := h.2.resolve_right (by rw [hdh _ hj]; simp)
    rw [C37_exact g mem a i this, if_neg (by omega)]

example : (T.CreatePDR, T.UpdatePDR) ∈ siblings ∧ Acc.SDFFilter ∈ unlikeIn T.CreatePDR T.UpdatePDR := by decide +kernel

/-! ### Groups that are not looked into -/

/-- Groups that carry a value the accessor does not look for. The first part is taken from the groups that the tests of the
project build (/repo/ie/ie_test.go:74-75, 294-295, 1651, 3497-3504, 3528-3533, ie_uint8_test.go:73, 186, 194); the second
from the tables of TS 29.244 (7.5.2.2-2 PDI, 7.5.8.6 session report, 7.4.5.1.4 clock drift report). -/
def missed : List (IEType × Acc) := [
  (T.ATSSSControlParameters, .MPTCPParameters),
  (T.DuplicatingParameters, .NetworkInstance),
  (T.UpdateDuplicatingParameters, .NetworkInstance),
  (T.PacketRateStatusReportWithinSessionModificationResponse, .PacketRateStatus),
  (T.PacketRateStatusReportWithinSessionModificationResponse, .QERID),
  (T.QueryPacketRateStatusWithinSessionModificationRequest, .QERID),
  (T.RedundantTransmissionForwardingParameters, .NetworkInstance),
  (T.RedundantTransmissionForwardingParameters, .OuterHeaderCreation),
  (T.TransportDelayReporting, .RemoteGTPUPeer),
  (T.TransportDelayReporting, .TransportLevelMarking),
  (T.UEIPAddressUsageInformation, .Metric),
  (T.UEIPAddressUsageInformation, .NetworkInstance),
  (T.UEIPAddressUsageInformation, .SequenceNumber),
  (T.UEIPAddressUsageInformation, .UEIPAddressPoolIdentity),
  (T.UpdateBARWithinSessionModificationRequest, .MTEDTControlInformation),
  (T.PDI, .QFI), (T.PDI, .TGPPInterfaceType), (T.PDI, .FramedRoute), (T.PDI, .FramedRouting), (T.PDI, .FramedIPv6Route),
  (T.SessionReport, .AccessAvailabilityReport),
  (T.ClockDriftReport, .TimeOffsetMeasurement), (T.ClockDriftReport, .CumulativeRateRatioMeasurement)]

/-- C65: whatever is in such a group, the accessor refuses it. -/
theorem C65_missed_violated (g : IEType → Bool) (mem : IE → Bytes) (a : Acc) (i : IE) (h : (i.typ, a) ∈ missed)
    (hl : firstCheck a ≤ i.payload.length) :
    i.typ ∈ defaultGroupedTypes ∧ a.call g mem i = .err (.invalidTypeError i.typ) := by
  have key : missed.all (fun p => defaultGroupedTypes.contains p.1 && !p.2.handles p.1) = true := by decide +kernel
  have := List.all_eq_true.1 key _ h
  simp only [Bool.and_eq_true, List.contains_iff_mem, Bool.not_eq_true'] at this
  exact ⟨this.1, by rw [C37_exact g mem a i this.2, if_neg (by omega)]⟩

example : (T.PDI, Acc.QFI) ∈ missed := by decide +kernel

/-- C65: the Ethernet type and the filter properties are looked for in the PDI itself, while the other values of an
Ethernet packet filter (C-TAG, S-TAG, MAC address, filter identifier) are looked for in the packet filter in the PDI:
what is in the packet filter is not found (/repo/ie/ethertype.go:17-27, ethernet-filter-properties.go:17-27). -/
theorem C65_pdi_packet_filter_violated (g : IEType → Bool) (mem : IE → Bytes) (a : Acc)
    (ha : a ∈ [Acc.Ethertype, .EthernetFilterProperties]) (i : IE) (ht : i.typ = T.PDI) (cs : List IE)
    (hm : parseMulti g i.payload = .ok cs) (hn : ∀ c ∈ cs, c.typ = T.EthernetPacketFilter) :
    a.call g mem i = .err .ieNotFound ∧
    ∀ b ∈ [Acc.CTAG, .STAG, .MACAddress, .EthernetFilterID], b.call g mem i =
      match cs.head? with
      | none => .err .ieNotFound
      | some c => b.call g mem c := by
  have hu : ∀ u ∈ looksFor a T.PDI, u ≠ T.EthernetPacketFilter := by
    have : [Acc.Ethertype, .EthernetFilterProperties].all (fun a => (looksFor a T.PDI).all (· != T.EthernetPacketFilter)) = true := by
      decide +kernel
    intro u hu
    simpa using List.all_eq_true.1 (List.all_eq_true.1 this a ha) u hu
  have ha' : (decide (a ∈ readsIn T.PDI) && decide (firstCheck a = 0) && !a.home.contains T.PDI && decide (a ≠ .FTEID)) = true := by
    have : [Acc.Ethertype, .EthernetFilterProperties].all (fun a =>
      decide (a ∈ readsIn T.PDI) && decide (firstCheck a = 0) && !a.home.contains T.PDI && decide (a ≠ .FTEID)) = true := by
      decide +kernel
    exact List.all_eq_true.1 this a ha
  simp only [Bool.and_eq_true, decide_eq_true_eq, Bool.not_eq_true'] at ha'
  refine ⟨?_, ?_⟩
  · rw [C65_reads g mem a i (by rw [ht]; simpa using ha'.1.2) (fun h => absurd h ha'.2) (by omega), ht, if_pos ha'.1.1.1, hm]
    have : cs.find? (fun c => (looksFor a T.PDI).contains c.typ) = none := by
      rw [List.find?_eq_none]
      intro c hc hcon
      rw [hn c hc] at hcon
      exact hu _ (by simpa using hcon) rfl
    dsimp only
    rw [this]
  · intro b hb
    have hb' : (decide (b ∈ readsIn T.PDI) && decide (firstCheck b = 0) && !b.home.contains T.PDI && decide (b ≠ .FTEID) &&
        decide (b.onChild = b) && (looksFor b T.PDI).contains T.EthernetPacketFilter) = true := by
      have : [Acc.CTAG, .STAG, .MACAddress, .EthernetFilterID].all (fun b =>
        decide (b ∈ readsIn T.PDI) && decide (firstCheck b = 0) && !b.home.contains T.PDI && decide (b ≠ .FTEID) &&
        decide (b.onChild = b) && (looksFor b T.PDI).contains T.EthernetPacketFilter) = true := by
        decide +kernel
      exact List.all_eq_true.1 this b hb
    simp only [Bool.and_eq_true, decide_eq_true_eq, Bool.not_eq_true'] at hb'
    rw [C65_reads g mem b i (by rw [ht]; simpa using hb'.1.1.1.2) (fun h => absurd h hb'.1.1.2) (by omega), ht,
      if_pos hb'.1.1.1.1.1, hm]
    dsimp only
    cases cs with
    | nil => rfl
    | cons c cs =>
      have hc := hn c List.mem_cons_self
      rw [List.find?_cons_of_pos (by rw [hc]; exact hb'.2)]
      dsimp only
      rw [hb'.1.2]
      rfl

example : ∃ cs, parseMulti (fun _ => false) [0, 132, 0, 6, 0, 136, 0, 2, 8, 0] = .ok cs ∧ cs.length = 1 ∧
    ∀ c ∈ cs, c.typ = T.EthernetPacketFilter :=
  ⟨[⟨T.EthernetPacketFilter, 6, 0, [0, 136, 0, 2, 8, 0], []⟩], by decide +kernel, rfl, by simp⟩

/-! ### Flags -/

/-- The functions that read the payload of the element itself and look into no group. -/
def flatFlags : List Flag := [
  .HasCHV4, .HasCHV6, .HasCTag, .HasDI, .HasDLPR, .HasDROBU, .HasINAM, .HasIP6PL, .HasIPv4, .HasIPv6, .HasIPv6D, .HasISTM,
  .HasLLI, .HasMAC, .HasMAI, .HasMBQE, .HasMNOP, .HasNI, .HasPPI, .HasPortNumber, .HasQAURR, .HasQFI, .HasRADI, .HasRDS,
  .HasRRCR, .HasRRTO, .HasSCI, .HasSD, .HasSNDEM, .HasSTag, .HasTEID, .HasTTC, .HasULPR, .IsAllocatedByCPFunction,
  .IsAllocatedByUPFunction, .IsLLSSMCTEID, .IsN19, .IsN6]

/-- The element types that an accessor and a flag share. -/
def sharesHome (f : Flag) (a : Acc) : Bool := a.home.any f.home

/-- The element types that carry the flag, as a list. -/
def homesOf (f : Flag) : List IEType := f.mentions.filter f.home

theorem sharesHome_iff (f : Flag) (a : Acc) : sharesHome f a = a.home.any (homesOf f).contains := by
  unfold sharesHome homesOf
  congr 1
  funext t
  rw [Bool.eq_iff_iff, List.contains_iff_mem, List.mem_filter]
  exact ⟨fun h => ⟨handles_mentions f t ((C37_flags_home f t).1 h), h⟩, fun h => h.2⟩

/-- `decide`able form. -/
def flagGroupsOk (f : Flag) : Bool :=
  let hs := homesOf f
  let as := Acc.all.filter (fun a => a.home.any hs.contains)
  f.mentions.all (fun t => !f.descends t || (!flatFlags.contains f && as.any fun a => a.descends t)) &&
  (flatFlags.contains f || as.all fun a => a.table.cases.all fun c =>
    !a.descends c.1 || (f.descends c.1 && decide (f.searched c.1 = a.searched c.1)))

theorem flagGroupsOk_all (f : Flag) : flagGroupsOk f = true := forall_flag (p := flagGroupsOk) (by decide +kernel) f

/-- C65: a flag function either looks into no group at all, or into exactly the groups the accessor of the element that
carries the flag looks into. -/
theorem C65_flag_groups (f : Flag) (t : IEType) :
    f.descends t = true ↔ f ∉ flatFlags ∧ ∃ a : Acc, sharesHome f a = true ∧ a ∈ readsIn t := by
  have h := flagGroupsOk_all f
  unfold flagGroupsOk at h
  simp only [← sharesHome_iff, Bool.and_eq_true, List.all_eq_true, Bool.or_eq_true, List.mem_filter] at h
  constructor
  · intro hd
    have := h.1 t (descends_mentions f t hd)
    rw [hd] at this
    have := this.resolve_left (by simp)
    simp only [Bool.not_eq_true', List.any_eq_true, List.mem_filter] at this
    obtain ⟨hf, a, ha, had⟩ := this
    exact ⟨by simpa using hf, a, ha.2, (C65_groups a t).1 had⟩
  · rintro ⟨hf, a, hs, hr⟩
    have hd := (C65_groups a t).2 hr
    obtain ⟨c, hc, rfl⟩ := descends_cases hd
    have := (h.2.resolve_left (by simpa using hf)) a ⟨Acc.mem_all a, hs⟩ c hc
    rw [hd] at this
    exact (this.resolve_left (by simp)).1

/-- C65: and it looks for the same children. -/
theorem C65_flag_searched (f : Flag) (t : IEType) (hf : f ∉ flatFlags) (a : Acc) (hs : sharesHome f a = true)
    (hr : a ∈ readsIn t) : f.searched t = looksFor a t := by
  have h := flagGroupsOk_all f
  unfold flagGroupsOk at h
  simp only [← sharesHome_iff, Bool.and_eq_true, List.all_eq_true, Bool.or_eq_true, List.mem_filter] at h
  have hd := (C65_groups a t).2 hr
  rw [← C65_searched a t hd]
  obtain ⟨c, hc, rfl⟩ := descends_cases hd
  have := (h.2.resolve_left (by simpa using hf)) a ⟨Acc.mem_all a, hs⟩ c hc
  rw [hd] at this
  simpa using (this.resolve_left (by simp)).2

example : Flag.HasDROP ∉ flatFlags ∧ sharesHome .HasDROP .ApplyAction = true ∧ Acc.ApplyAction ∈ readsIn T.CreateFAR := by
  decide +kernel

/-- C65: the functions listed answer no for every group, whatever it contains. -/
theorem C65_flat_flags_violated (g : IEType → Bool) (mem : IE → Bytes) (f : Flag) (hf : f ∈ flatFlags) (i : IE)
    (ht : i.typ ∈ defaultGroupedTypes) (hh : f.home i.typ = false) : f.call g mem i = .ok false := by
  cases hd : f.handles i.typ with
  | false => exact C37_flags g mem f i hd
  | true => exact absurd hf ((C65_flag_groups f i.typ).1 (C38_flags_grouped f i.typ hd ht hh)).1

example : Flag.HasQFI.home T.DownlinkDataReport = false ∧ T.DownlinkDataReport ∈ defaultGroupedTypes := by decide +kernel

end Pfcp
