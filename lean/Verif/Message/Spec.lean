/-
Specification side of messages: which element type each field of each message stands for (the numbers
of TS 29.244 table 8.1.2-1, written as literals), what a well-formed message is, and its wire format.
Independent of the interpreters in Verif/Message/Model.lean.
-/
import Verif.Message.HeaderLemmas
import Verif.Message.Model
import Verif.IE.Accept

namespace Pfcp

/-- The element type that field `n` of a message of kind `k` holds. -/
def fieldIE (k : Kind) (n : FieldName) : IEType :=
  match k, n with
  | .sessionModificationRequest, .UpdateBAR => 86
  | _, .UpdateBAR => 12
  | .sessionModificationResponse, .UsageReport => 78
  | .sessionDeletionResponse, .UsageReport => 79
  | _, .UsageReport => 80
  | _, .APNDNN => 159
  | _, .ATSSSControlParameters => 221
  | _, .AccessAvailabilityInformation => 219
  | _, .AdditionalUsageReportsInformation => 126
  | _, .AlternativeSMFIPAddress => 178
  | _, .ApplicationIDsPFDs => 58
  | _, .CPFSEID => 57
  | _, .CPFunctionFeatures => 89
  | _, .Cause => 19
  | _, .ClockDriftControlInformation => 203
  | _, .ClockDriftReport => 205
  | _, .CreateBAR => 85
  | _, .CreateBridgeInfoForTSC => 194
  | _, .CreateFAR => 3
  | _, .CreateMAR => 165
  | _, .CreatePDR => 1
  | _, .CreateQER => 7
  | _, .CreateSRR => 212
  | _, .CreateTrafficEndpoint => 127
  | _, .CreateURR => 6
  | _, .CreatedBridgeInfoForTSC => 195
  | _, .CreatedPDR => 8
  | _, .CreatedTrafficEndpoint => 128
  | _, .CreatedUpdatedTrafficEndpoint => 128
  | _, .DownlinkDataReport => 83
  | _, .ErrorIndicationReport => 99
  | _, .EthernetContextInformation => 254
  | _, .FQCSID => 65
  | _, .FailedRuleID => 114
  | _, .GTPUPathQoSControlInformation => 238
  | _, .GTPUPathQoSReport => 239
  | _, .GracefulReleasePeriod => 112
  | _, .LoadControlInformation => 51
  | _, .N4UFTEID => 21
  | _, .NodeID => 60
  | _, .NodeReportType => 101
  | _, .OffendingIE => 40
  | _, .OldCPFSEID => 57
  | _, .OverloadControlInformation => 54
  | _, .PDNType => 113
  | _, .PFCPASReqFlags => 259
  | _, .PFCPASRspFlags => 184
  | _, .PFCPAUReqFlags => 162
  | _, .PFCPAssociationReleaseRequest => 111
  | _, .PFCPSEReqFlags => 186
  | _, .PFCPSMReqFlags => 49
  | _, .PFCPSRReqFlags => 161
  | _, .PFCPSRRspFlags => 50
  | _, .PFCPSessionRetentionInformation => 183
  | _, .PacketRateStatusReport => 252
  | _, .PortManagementInformationForTSC => 201
  | _, .ProvideATSSSControlInformation => 220
  | _, .ProvideRDSConfigurationInformation => 261
  | _, .QueryPacketRateStatus => 263
  | _, .QueryURR => 77
  | _, .QueryURRReference => 125
  | _, .RecoveryTimeStamp => 96
  | _, .RemoveBAR => 87
  | _, .RemoveFAR => 16
  | _, .RemoveMAR => 168
  | _, .RemovePDR => 15
  | _, .RemoveQER => 18
  | _, .RemoveSRR => 211
  | _, .RemoveTrafficEndpoint => 130
  | _, .RemoveURR => 17
  | _, .ReportType => 39
  | _, .SMFSetID => 180
  | _, .SNSSAI => 257
  | _, .SessionReport => 214
  | _, .SourceIPAddress => 192
  | _, .TSCManagementInformation => 199
  | _, .TraceInformation => 152
  | _, .UEIPAddressPoolInformation => 233
  | _, .UEIPAddressUsageInformation => 267
  | _, .UPFInstanceID => 253
  | _, .UPFSEID => 57
  | _, .UPFunctionFeatures => 43
  | _, .UpdateFAR => 10
  | _, .UpdateMAR => 169
  | _, .UpdatePDR => 9
  | _, .UpdateQER => 14
  | _, .UpdateSRR => 213
  | _, .UpdateTrafficEndpoint => 129
  | _, .UpdateURR => 13
  | _, .UpdatedPDR => 256
  | _, .UserID => 141
  | _, .UserPlaneIPResourceInformation => 116
  | _, .UserPlaneInactivityTimer => 117
  | _, .UserPlanePathFailureReport => 102
  | _, .UserPlanePathRecoveryReport => 187

/-- The assignment of type octets to message kinds, TS 29.244 table 7.3-1. -/
def assignedKinds : List (UInt8 × Kind) :=
  [(1, .heartbeatRequest), (2, .heartbeatResponse), (3, .pfdManagementRequest),
   (4, .pfdManagementResponse), (5, .associationSetupRequest), (6, .associationSetupResponse),
   (7, .associationUpdateRequest), (8, .associationUpdateResponse), (9, .associationReleaseRequest),
   (10, .associationReleaseResponse), (11, .versionNotSupportedResponse), (12, .nodeReportRequest),
   (13, .nodeReportResponse), (14, .sessionSetDeletionRequest), (15, .sessionSetDeletionResponse),
   (50, .sessionEstablishmentRequest), (51, .sessionEstablishmentResponse),
   (52, .sessionModificationRequest), (53, .sessionModificationResponse),
   (54, .sessionDeletionRequest), (55, .sessionDeletionResponse), (56, .sessionReportRequest),
   (57, .sessionReportResponse)]

/-- The elements held by a field. -/
def Slot.elems : Slot → List IE
  | .one v => v.toList
  | .many vs => vs.filterMap id

/-- A slice field without nil entries (pointer fields may be nil). -/
def Slot.NoNil : Slot → Prop
  | .one _ => True
  | .many vs => none ∉ vs

namespace Msg

/-- The fields are those of the message's Go type, in order. -/
def Shaped (m : Msg) : Prop := m.fields.map (fun p => (p.1, p.2.card)) = m.kind.tab.fields

/-- All elements of the message in wire order: the fields in order, then the extra elements. -/
def elements (m : Msg) : List IE := m.fields.flatMap (fun p => p.2.elems) ++ m.ies.filterMap id

/-- The message body on the wire. -/
def body (g : IEType → Bool) (m : Msg) : Bytes := encList g m.elements

/-- The header as sent: payload is the body, and the length counts what follows the fourth octet. -/
def wireHeader (g : IEType → Bool) (m : Msg) : Header :=
  { m.header with
    payload := m.body g
    length := UInt16.ofNat (Header.fixedLen m.header.flags + (m.body g).length - 4) }

/-- The message as sent. -/
def wire (g : IEType → Bool) (m : Msg) : Bytes := (m.wireHeader g).enc

/-- No nil pointer in a slice field (nil in `IEs` and nil pointer fields are allowed). -/
def NoNil (m : Msg) : Prop := ∀ p ∈ m.fields, p.2.NoNil

/-- A well-formed message: it has the fields of its kind; its type octet is the one assigned to its
kind (any unassigned one for Generic); the header fits the wire; every field holds only elements of
the type it stands for, and the extra list holds none of those types; all elements are well-formed. -/
structure WF (g : IEType → Bool) (m : Msg) : Prop where
  shaped : m.Shaped
  noNil : m.NoNil
  typ : (m.kind = .generic ∧ m.header.typ ∉ assignedKinds.map (·.1)) ∨ (m.header.typ, m.kind) ∈ assignedKinds
  seq : m.header.seq.toNat < 2 ^ 24
  seid : has1stBit m.header.flags = false → m.header.seid = 0
  fieldTypes : ∀ p ∈ m.fields, ∀ i ∈ p.2.elems, i.typ = fieldIE m.kind p.1
  extraTypes : ∀ i ∈ m.ies.filterMap id, ∀ p ∈ m.fields, i.typ ≠ fieldIE m.kind p.1
  elems : WFList g m.elements

end Msg
end Pfcp
