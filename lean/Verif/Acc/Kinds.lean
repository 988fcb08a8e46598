/-
The types of the values: an accessor returns a value of the Go type its signature in /repo/ie declares. In Go the compiler
sees to this; here it shows that the table of accessors, which is untyped, is read in the same way.
-/
import Verif.Acc.Lemmas

namespace Pfcp

/-- The Go types that accessors return; structures of the same form (for instance those of volume thresholds and
quotas) share a model and are one type here. `IEType` is `uint16`. `nodeString` is the
`string` that `NodeID` returns, a name or the text of an address. -/
inductive GoType where
  | uint8 | uint16 | uint32 | uint64 | bytes | string | nodeString | hardwareAddr | duration | time | ies | uint16s
  | volume | volumeMeasurement | numberOfUEIPAddresses | delays | dlFlowLevelMarking | packetRate
  | packetRateStatus | ip46 | fseid | fteid | mptcpAddressInformation | ueLinkSpecificIPAddress | sourceIPAddress
  | ueIPAddress | remoteGTPUPeer | ipMulticastAddress | userPlaneIPResourceInformation | headerEnrichment | tag
  | macAddress | sdfFilter | outerHeaderCreation | pmfAddressInformation | redirectInformation | userID
  | traceInformation | macAddresses | pfdContents
  deriving DecidableEq

/-- The values of each type; strings are bytes. -/
def Val.has : Val → GoType → Bool
  | .u8 _, .uint8 | .u16 _, .uint16 | .u32 _, .uint32 | .u64 _, .uint64 | .bytes _, .bytes | .bytes _, .string
  | .ipText _, .nodeString | .bytes _, .nodeString | .mac _, .hardwareAddr | .duration _, .duration | .time _, .time | .ies _, .ies
  | .u16s _, .uint16s
  | .volume _, .volume
  | .volumeMeasurement _, .volumeMeasurement
  | .numberOfUEIPAddresses _, .numberOfUEIPAddresses
  | .delays _, .delays
  | .dlFlowLevelMarking _, .dlFlowLevelMarking
  | .packetRate _, .packetRate
  | .packetRateStatus _, .packetRateStatus
  | .ip46 _, .ip46
  | .fseid _, .fseid
  | .fteid _, .fteid
  | .mptcpAddressInformation _, .mptcpAddressInformation
  | .ueLinkSpecificIPAddress _, .ueLinkSpecificIPAddress
  | .sourceIPAddress _, .sourceIPAddress
  | .ueIPAddress _, .ueIPAddress
  | .remoteGTPUPeer _, .remoteGTPUPeer
  | .ipMulticastAddress _, .ipMulticastAddress
  | .userPlaneIPResourceInformation _, .userPlaneIPResourceInformation
  | .headerEnrichment _, .headerEnrichment
  | .tag _, .tag
  | .macAddress _, .macAddress
  | .sdfFilter _, .sdfFilter
  | .outerHeaderCreation _, .outerHeaderCreation
  | .pmfAddressInformation _, .pmfAddressInformation
  | .redirectInformation _, .redirectInformation
  | .userID _, .userID
  | .traceInformation _, .traceInformation
  | .macAddresses _, .macAddresses
  | .pfdContents _, .pfdContents => true
  | _, _ => false

/-- The declared types: the signature `func (i *IE) X() (T, error)` of every accessor, cited at its entry in
`Verif/Acc/Table.lean`. -/
def Acc.returns : Acc → GoType
  | .AccessAvailabilityControlInformation | .AccessAvailabilityReport | .AdditionalMonitoringTime
  | .AggregatedURRs | .ApplicationDetectionInformation | .ApplicationIDsPFDs | .ATSSSControlParameters
  | .ATSSSLLParameters | .ClockDriftControlInformation | .ClockDriftReport | .CreateBAR | .CreateFAR | .CreateMAR
  | .CreatePDR | .CreateQER | .CreateSRR | .CreateTrafficEndpoint | .CreateURR | .CreatedBridgeInfoForTSC
  | .CreatedPDR | .CreatedTrafficEndpoint | .DownlinkDataReport | .DuplicatingParameters | .ErrorIndicationReport
  | .EthernetContextInformation | .EthernetPacketFilter | .EthernetTrafficInformation | .ForwardingParameters
  | .GTPUPathQoSControlInformation | .GTPUPathQoSReport | .IPMulticastAddressingInfo
  | .JoinIPMulticastInformationWithinUsageReport | .LeaveIPMulticastInformationWithinUsageReport
  | .LoadControlInformation | .MPTCPParameters | .NonTGPPAccessForwardingActionInformation
  | .OverloadControlInformation | .PacketRateStatusReport | .PDI | .PFCPSessionRetentionInformation | .PFDContext
  | .PMFParameters | .ProvideATSSSControlInformation | .ProvideRDSConfigurationInformation
  | .QoSInformationInGTPUPathQoSReport | .QoSMonitoringPerQoSFlowControlInformation | .QoSMonitoringReport
  | .QueryPacketRateStatus | .QueryURR | .RedundantTransmissionForwardingParameters
  | .RedundantTransmissionParameters | .RemoveBAR | .RemoveFAR | .RemoveMAR | .RemovePDR | .RemoveQER | .RemoveSRR
  | .RemoveTrafficEndpoint | .RemoveURR | .SessionReport | .TGPPAccessForwardingActionInformation
  | .TransportDelayReporting | .TSCManagementInformation | .PortManagementInformationForTSC
  | .UEIPAddressPoolInformation | .UEIPAddressUsageInformation | .UpdateTGPPAccessForwardingActionInformation
  | .UpdateBAR | .UpdateDuplicatingParameters | .UpdateFAR | .UpdateForwardingParameters | .UpdateMAR
  | .UpdateNonTGPPAccessForwardingActionInformation | .UpdatePDR | .UpdateQER | .UpdateSRR
  | .UpdateTrafficEndpoint | .UpdateURR | .UpdatedPDR | .UsageReport | .UserPlanePathFailureReport
  | .UserPlanePathRecoveryReport => .ies
  | .AccessAvailabilityInformation | .ATSSSLLControlInformation | .ATSSSLLInformation | .BARID | .Cause
  | .CreateBridgeInfoForTSC | .DataStatus | .DestinationInterface | .PPI | .DroppedDLTrafficThreshold
  | .EthernetFilterProperties | .EthernetPDUSessionInformation | .RuleIDType | .FlowDirection | .NodeIDType
  | .GateStatus | .GTPUPathInterfaceType | .IPVersion | .MeasurementInformation | .MeasurementMethod | .Metric
  | .MPTCPApplicableIndication | .MPTCPControlInformation | .MTEDTControlInformation | .NodeReportType | .OCIFlags
  | .PacketReplicationAndDetectionCarryOnInformation | .PagingPolicyIndicator | .PDNType
  | .PFCPAssociationReleaseRequest | .PFCPASReqFlags | .PFCPASRspFlags | .PFCPAUReqFlags | .PFCPSEReqFlags
  | .PFCPSMReqFlags | .PFCPSRReqFlags | .PFCPSRRspFlags | .PMFControlInformation | .Priority | .Proxying
  | .QERControlIndications | .QFI | .QoSReportTrigger | .RDSConfigurationInformation | .ReportType
  | .ReportingFrequency | .RequestedAccessAvailabilityInformation | .RequestedClockDriftInformation
  | .RequestedQoSMonitoring | .RQI | .SourceInterface | .SRRID | .SteeringFunctionality | .SteeringMode
  | .SuggestedBufferingPacketsCount | .TGPPInterfaceType | .TrafficEndpointID | .TSNTimeDomainNumber
  | .UsageInformation | .Weight => .uint8
  | .ActivatePredefinedRules | .APNDNN | .ApplicationID | .ApplicationInstanceID
  | .BridgeManagementInformationContainer | .DataNetworkAccessIdentifier | .DeactivatePredefinedRules
  | .FlowDescription | .FramedIPv6Route | .FramedRoute | .NetworkInstance | .PortManagementInformationContainer
  | .SMFSetID => .string
  | .ActivationTime | .DeactivationTime | .EndTime | .EventTimeStamp | .MonitoringTime | .RecoveryTimeStamp
  | .StartTime | .TimeOfFirstPacket | .TimeOfLastPacket => .time
  | .AdditionalUsageReportsInformation | .DLBufferingSuggestedPacketCount | .DLDataPacketsSize | .Ethertype
  | .MARID | .NumberOfReports | .OffendingIE | .PDRID | .TransportLevelMarking => .uint16
  | .AggregatedURRID | .AveragingWindow | .CumulativeRateRatioMeasurement | .CumulativeRateRatioThreshold
  | .DSTTPortNumber | .EthernetFilterID | .EventQuota | .EventThreshold | .FailedRuleID | .FARID | .FramedRouting
  | .InactivityDetectionTime | .LinkedURRID | .Exponent | .NWTTPortNumber | .Precedence | .QERCorrelationID
  | .QERID | .QueryURRReference | .SequenceNumber | .SubsequentEventQuota | .SubsequentEventThreshold | .URSEQN
  | .URRID => .uint32
  | .AlternativeSMFIPAddress | .CPPFCPEntityIPAddress => .ip46
  | .ApplyAction | .CPFunctionFeatures | .DownlinkDataServiceInformation | .FlowInformation | .ForwardingPolicy
  | .FQCSID | .NodeAddress | .GBR | .MBR | .Multiplier | .NFInstanceID | .OuterHeaderRemoval | .ReportingTriggers
  | .SNSSAI | .TimeQuotaMechanism | .UEIPAddressPoolIdentity | .UPFunctionFeatures | .UsageReportTrigger => .bytes
  | .AveragePacketDelay | .DLBufferingDuration | .DownlinkDataNotificationDelay | .DurationMeasurement
  | .EthernetInactivityTimer | .GracefulReleasePeriod | .MaximumPacketDelay | .MeasurementPeriod
  | .MinimumPacketDelay | .MinimumWaitTime | .QuotaHoldingTime | .QuotaValidityTime | .SubsequentTimeQuota
  | .SubsequentTimeThreshold | .TimeOffsetMeasurement | .TimeOffsetThreshold | .TimeQuota | .TimeThreshold
  | .Timer | .UserPlaneInactivityTimer | .ValidityTimer => .duration
  | .CTAG | .STAG => .tag
  | .LocalFTEID | .FTEID => .fteid
  | .DLFlowLevelMarking => .dlFlowLevelMarking
  | .FSEID => .fseid
  | .CSIDs => .uint16s
  | .HeaderEnrichment => .headerEnrichment
  | .IPMulticastAddress => .ipMulticastAddress
  | .MACAddressesDetected | .MACAddressesRemoved => .macAddresses
  | .MACAddress => .macAddress
  | .MPTCPAddressInformation => .mptcpAddressInformation
  | .ValueDigits => .uint64
  | .NodeID => .nodeString
  | .NumberOfUEIPAddresses => .numberOfUEIPAddresses
  | .OuterHeaderCreation => .outerHeaderCreation
  | .PacketDelayThresholds | .QoSMonitoringMeasurement => .delays
  | .PacketRateStatus => .packetRateStatus
  | .PacketRate => .packetRate
  | .PFDContents => .pfdContents
  | .PMFAddressInformation => .pmfAddressInformation
  | .RedirectInformation => .redirectInformation
  | .RemoteGTPUPeer => .remoteGTPUPeer
  | .SDFFilter => .sdfFilter
  | .SourceIPAddress => .sourceIPAddress
  | .SubsequentVolumeQuota | .SubsequentVolumeThreshold | .VolumeQuota | .VolumeThreshold => .volume
  | .TraceInformation => .traceInformation
  | .TSNBridgeID => .hardwareAddr
  | .UEIPAddress => .ueIPAddress
  | .UELinkSpecificIPAddress => .ueLinkSpecificIPAddress
  | .UserID => .userID
  | .UserPlaneIPResourceInformation => .userPlaneIPResourceInformation
  | .VolumeMeasurement => .volumeMeasurement

/-- The types a leaf produces. -/
def Leaf.gives : Leaf → List GoType
  | .ies => [.ies]
  | .u8 | .byteMin _ _ | .mask _ | .maskMin _ | .nodeIDType => [.uint8]
  | .u16 | .usageReports | .packetCount => [.uint16]
  | .u32 | .failedRule | .exponent => [.uint32]
  | .u64 => [.uint64]
  | .str | .fqdn | .payload | .payloadMin _ | .flowDescription | .nodeAddress | .prefix _ => [.bytes, .string]
  | .nodeID => [.nodeString]
  | .timestamp => [.time]
  | .sec32 | .sec32Min | .ms32 | .sec16 | .ns64 | .timer | .timerMin | .delay50 => [.duration]
  | .csids => [.uint16s]
  | .tsnBridgeID => [.hardwareAddr]
  | .ctagOf | .stagOf => [.tag]
  | .ambiguous => []
  | .volume => [.volume]
  | .volumeMeasurement => [.volumeMeasurement]
  | .numberOfUEIPAddresses => [.numberOfUEIPAddresses]
  | .delays => [.delays]
  | .dlFlowLevelMarking => [.dlFlowLevelMarking]
  | .packetRate => [.packetRate]
  | .packetRateStatus => [.packetRateStatus]
  | .ip46 => [.ip46]
  | .fseid => [.fseid]
  | .fteid => [.fteid]
  | .mptcpAddressInformation => [.mptcpAddressInformation]
  | .ueLinkSpecificIPAddress => [.ueLinkSpecificIPAddress]
  | .sourceIPAddress => [.sourceIPAddress]
  | .ueIPAddress => [.ueIPAddress]
  | .remoteGTPUPeer => [.remoteGTPUPeer]
  | .ipMulticastAddress => [.ipMulticastAddress]
  | .userPlaneIPResourceInformation => [.userPlaneIPResourceInformation]
  | .headerEnrichment => [.headerEnrichment]
  | .tag => [.tag]
  | .macAddress => [.macAddress]
  | .sdfFilter => [.sdfFilter]
  | .outerHeaderCreation => [.outerHeaderCreation]
  | .pmfAddressInformation => [.pmfAddressInformation]
  | .redirectInformation => [.redirectInformation]
  | .userID => [.userID]
  | .traceInformation => [.traceInformation]
  | .macAddresses => [.macAddresses]
  | .pfdContents => [.pfdContents]

/-- Whatever value comes out satisfies `P`. -/
def Gives (P : Val → Bool) (r : Res Val) : Prop := ∀ v, r = .ok v → P v = true

theorem Gives.bind {α : Type} {P : Val → Bool} {r : Res α} {f : α → Res Val} (h : ∀ x, Gives P (f x)) : Gives P (r >>= f) := by
  intro v hv
  obtain ⟨x, -, h2⟩ := Res.bind_eq_ok.1 hv
  exact h x v h2

theorem Gives.ite {P : Val → Bool} {c : Prop} [Decidable c] {a b : Res Val} (ha : Gives P a) (hb : Gives P b) :
    Gives P (if c then a else b) := by
  split
  · exact ha
  · exact hb

theorem Gives.err {P : Val → Bool} {e : GoErr} : Gives P (.err e) := by intro v hv; cases hv

theorem Gives.ok {P : Val → Bool} {v : Val} (h : P v = true) : Gives P (.ok v) := by intro w hw; cases hw; exact h

theorem Leaf.run_gives (g : IEType → Bool) (l : Leaf) (i : IE) (sp : Bytes) :
    Gives (fun v => l.gives.all v.has) (l.run g i sp) := by
  cases l <;> simp only [Leaf.run, nodeIDOf] <;>
    repeat first
      | exact Gives.err
      | exact Gives.ok rfl
      | refine Gives.ite ?_ ?_
      | refine Gives.bind fun _ => ?_

/-- The leaves of an accessor produce its declared type, and the accessors it calls on children declare the same. -/
def Acc.typed (a : Acc) : Bool :=
  a.table.cases.all fun c => match c.2 with
    | .leaf .ambiguous => true
    | .leaf l => l.gives.contains a.returns
    | .descend _ subs => subs.all fun s => decide (s.2.returns = a.returns)

theorem Acc.typed_all (a : Acc) : a.typed = true := forall_acc (p := Acc.typed) (by decide +kernel) a

/-- Every value an accessor returns, on whatever element, is of its declared type. -/
theorem C38_typed (g : IEType → Bool) (mem : IE → Bytes) (a : Acc) (i : IE) (v : Val)
    (h : a.call g mem i = .ok v) : v.has a.returns = true := by
  generalize hn : i.payload.length = n
  induction n using Nat.strongRecOn generalizing a i with
  | ind n ih =>
    have key := a.typed_all
    rw [call_eq] at h
    split at h
    · cases h
    · split at h
      · cases h
      · rename_i l hl
        have hk := List.all_eq_true.1 key _ (lookup_mem hl)
        have hb : l.gives.contains a.returns = true := by
          cases l <;> first | exact hk | cases h
        exact List.all_eq_true.1 (Leaf.run_gives g l i (mem i) v h) _ (by simpa using hb)
      · rename_i via subs hl
        have hk := List.all_eq_true.1 key _ (lookup_mem hl)
        split at h
        · cases h
        · cases h
        · rename_i cs hcs
          split at h
          · cases h
          · rename_i x b hf
            obtain ⟨hx, hb⟩ := findSub_mem hf
            have hr := of_decide_eq_true (List.all_eq_true.1 hk _ (lookup_mem hb))
            have hlt := child_payload hcs hx
            rw [← hr]
            exact ih x.payload.length (by omega) b x h rfl

/-- Values are returned: for instance the cause of acceptance. -/
example : Acc.Cause.call (fun _ => false) (fun _ => []) (IE.new T.Cause [1]) = .ok (.u8 1) ∧ Val.has (.u8 1) Acc.Cause.returns = true := by
  refine ⟨?_, by decide⟩
  rw [call_eq]
  rfl

end Pfcp
