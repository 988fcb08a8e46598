/-
The message kinds of /repo/message and, for each, the tables that its methods are made of. The 23 files
/repo/message/<kind>.go instantiate one template; what differs is which fields the struct has, in which
order MarshalLen and MarshalTo visit them, which IE type each case of the UnmarshalBinary (and
constructor) switch files where, and how SetLength, MessageTypeName and IsRequest are written. Each of
those is transcribed separately below, so that agreement between them is something to be proved.
Generated from the Go sources; the interpreters are in Verif/Message/Model.lean.
-/
import Verif.IE.Types

namespace Pfcp

/-- The implementations of the `Message` interface, /repo/message/message.go:66-116. -/
inductive Kind where
  | heartbeatRequest
  | heartbeatResponse
  | pfdManagementRequest
  | pfdManagementResponse
  | associationSetupRequest
  | associationSetupResponse
  | associationUpdateRequest
  | associationUpdateResponse
  | associationReleaseRequest
  | associationReleaseResponse
  | versionNotSupportedResponse
  | nodeReportRequest
  | nodeReportResponse
  | sessionSetDeletionRequest
  | sessionSetDeletionResponse
  | sessionEstablishmentRequest
  | sessionEstablishmentResponse
  | sessionModificationRequest
  | sessionModificationResponse
  | sessionDeletionRequest
  | sessionDeletionResponse
  | sessionReportRequest
  | sessionReportResponse
  | generic
  deriving DecidableEq, Repr

namespace Kind

/-- All kinds. -/
def all : List Kind :=
  [.heartbeatRequest, .heartbeatResponse, .pfdManagementRequest, .pfdManagementResponse,
   .associationSetupRequest, .associationSetupResponse, .associationUpdateRequest,
   .associationUpdateResponse, .associationReleaseRequest, .associationReleaseResponse,
   .versionNotSupportedResponse, .nodeReportRequest, .nodeReportResponse,
   .sessionSetDeletionRequest, .sessionSetDeletionResponse, .sessionEstablishmentRequest,
   .sessionEstablishmentResponse, .sessionModificationRequest, .sessionModificationResponse,
   .sessionDeletionRequest, .sessionDeletionResponse, .sessionReportRequest,
   .sessionReportResponse, .generic]

end Kind

/-- The names of the struct fields of all kinds (`Header` and `IEs` excepted). -/
inductive FieldName where
  | APNDNN
  | ATSSSControlParameters
  | AccessAvailabilityInformation
  | AdditionalUsageReportsInformation
  | AlternativeSMFIPAddress
  | ApplicationIDsPFDs
  | CPFSEID
  | CPFunctionFeatures
  | Cause
  | ClockDriftControlInformation
  | ClockDriftReport
  | CreateBAR
  | CreateBridgeInfoForTSC
  | CreateFAR
  | CreateMAR
  | CreatePDR
  | CreateQER
  | CreateSRR
  | CreateTrafficEndpoint
  | CreateURR
  | CreatedBridgeInfoForTSC
  | CreatedPDR
  | CreatedTrafficEndpoint
  | CreatedUpdatedTrafficEndpoint
  | DownlinkDataReport
  | ErrorIndicationReport
  | EthernetContextInformation
  | FQCSID
  | FailedRuleID
  | GTPUPathQoSControlInformation
  | GTPUPathQoSReport
  | GracefulReleasePeriod
  | LoadControlInformation
  | N4UFTEID
  | NodeID
  | NodeReportType
  | OffendingIE
  | OldCPFSEID
  | OverloadControlInformation
  | PDNType
  | PFCPASReqFlags
  | PFCPASRspFlags
  | PFCPAUReqFlags
  | PFCPAssociationReleaseRequest
  | PFCPSEReqFlags
  | PFCPSMReqFlags
  | PFCPSRReqFlags
  | PFCPSRRspFlags
  | PFCPSessionRetentionInformation
  | PacketRateStatusReport
  | PortManagementInformationForTSC
  | ProvideATSSSControlInformation
  | ProvideRDSConfigurationInformation
  | QueryPacketRateStatus
  | QueryURR
  | QueryURRReference
  | RecoveryTimeStamp
  | RemoveBAR
  | RemoveFAR
  | RemoveMAR
  | RemovePDR
  | RemoveQER
  | RemoveSRR
  | RemoveTrafficEndpoint
  | RemoveURR
  | ReportType
  | SMFSetID
  | SNSSAI
  | SessionReport
  | SourceIPAddress
  | TSCManagementInformation
  | TraceInformation
  | UEIPAddressPoolInformation
  | UEIPAddressUsageInformation
  | UPFInstanceID
  | UPFSEID
  | UPFunctionFeatures
  | UpdateBAR
  | UpdateFAR
  | UpdateMAR
  | UpdatePDR
  | UpdateQER
  | UpdateSRR
  | UpdateTrafficEndpoint
  | UpdateURR
  | UpdatedPDR
  | UsageReport
  | UserID
  | UserPlaneIPResourceInformation
  | UserPlaneInactivityTimer
  | UserPlanePathFailureReport
  | UserPlanePathRecoveryReport
  deriving DecidableEq, Repr

/-- Whether a struct field is a pointer (`*ie.IE`) or a slice (`[]*ie.IE`). -/
inductive Card where
  | one
  | many
  deriving DecidableEq, Repr

/-- How a constructor fills the fields: by a switch on the type of each element of `ies`, or from
positional parameters (with `ies` going to the extra list). -/
inductive Ctor where
  | switch (cases : List (IEType × FieldName))
  | args (fields : List FieldName)
  deriving DecidableEq, Repr

/-- What is specific to one message kind. -/
structure KindTable where
  /-- struct fields in order, `IEs` excepted -/
  fields : List (FieldName × Card)
  /-- fields visited by `MarshalLen`, in order -/
  lenOrder : List FieldName
  /-- fields visited by `MarshalTo`, in order -/
  marshalOrder : List FieldName
  /-- cases of the switch in `UnmarshalBinary` -/
  parseSwitch : List (IEType × FieldName)
  ctor : Ctor
  /-- `none`: `SetLength` is `uint16(m.MarshalLen() - 4)`; `some fs`: it sums the listed fields and all
  of `IEs` itself, without skipping nil entries -/
  setLen : Option (List FieldName)
  /-- whether the constructor builds a header with the S flag -/
  session : Bool
  typeName : String
  isRequest : Bool
  /-- the type octet given to `NewHeader` by the constructor -/
  msgType : UInt8

/-- HeartbeatRequest: struct /repo/message/heartbeat-request.go:12-17; constructor /repo/message/heartbeat-request.go:20-34;
MarshalTo /repo/message/heartbeat-request.go:47-79;
UnmarshalBinary /repo/message/heartbeat-request.go:91-118;
MarshalLen /repo/message/heartbeat-request.go:121-139; SetLength /repo/message/heartbeat-request.go:142-156;
MessageTypeName /repo/message/heartbeat-request.go:159-161; IsRequest /repo/message/heartbeat-request.go:169-171. -/
def tabHeartbeatRequest : KindTable where
  fields :=
      [(.RecoveryTimeStamp, .one), (.SourceIPAddress, .one)]
  lenOrder :=
      [.RecoveryTimeStamp, .SourceIPAddress]
  marshalOrder :=
      [.RecoveryTimeStamp, .SourceIPAddress]
  parseSwitch :=
      [(T.RecoveryTimeStamp, .RecoveryTimeStamp), (T.SourceIPAddress, .SourceIPAddress)]
  ctor := .args
      [.RecoveryTimeStamp, .SourceIPAddress]
  setLen := some [.RecoveryTimeStamp, .SourceIPAddress]
  session := false
  typeName := "Heartbeat Request"
  isRequest := true
  msgType := 1

/-- HeartbeatResponse: struct /repo/message/heartbeat-response.go:12-16; constructor /repo/message/heartbeat-response.go:19-32;
MarshalTo /repo/message/heartbeat-response.go:45-71;
UnmarshalBinary /repo/message/heartbeat-response.go:83-108;
MarshalLen /repo/message/heartbeat-response.go:111-126; SetLength /repo/message/heartbeat-response.go:129-140;
MessageTypeName /repo/message/heartbeat-response.go:143-145; IsRequest /repo/message/heartbeat-response.go:153-155. -/
def tabHeartbeatResponse : KindTable where
  fields :=
      [(.RecoveryTimeStamp, .one)]
  lenOrder :=
      [.RecoveryTimeStamp]
  marshalOrder :=
      [.RecoveryTimeStamp]
  parseSwitch :=
      [(T.RecoveryTimeStamp, .RecoveryTimeStamp)]
  ctor := .args
      [.RecoveryTimeStamp]
  setLen := some [.RecoveryTimeStamp]
  session := false
  typeName := "Heartbeat Response"
  isRequest := false
  msgType := 2

/-- PFDManagementRequest: struct /repo/message/pfd-management-request.go:12-16; constructor /repo/message/pfd-management-request.go:19-39;
MarshalTo /repo/message/pfd-management-request.go:52-78;
UnmarshalBinary /repo/message/pfd-management-request.go:90-115;
MarshalLen /repo/message/pfd-management-request.go:118-133; SetLength /repo/message/pfd-management-request.go:136-138;
MessageTypeName /repo/message/pfd-management-request.go:141-143; IsRequest /repo/message/pfd-management-request.go:151-153. -/
def tabPFDManagementRequest : KindTable where
  fields :=
      [(.ApplicationIDsPFDs, .many)]
  lenOrder :=
      [.ApplicationIDsPFDs]
  marshalOrder :=
      [.ApplicationIDsPFDs]
  parseSwitch :=
      [(T.ApplicationIDsPFDs, .ApplicationIDsPFDs)]
  ctor := .switch
      [(T.ApplicationIDsPFDs, .ApplicationIDsPFDs)]
  setLen := none
  session := false
  typeName := "PFD Management Request"
  isRequest := true
  msgType := 3

/-- PFDManagementResponse: struct /repo/message/pfd-management-response.go:14-19; constructor /repo/message/pfd-management-response.go:22-36;
MarshalTo /repo/message/pfd-management-response.go:49-81;
UnmarshalBinary /repo/message/pfd-management-response.go:93-120;
MarshalLen /repo/message/pfd-management-response.go:123-141; SetLength /repo/message/pfd-management-response.go:144-158;
MessageTypeName /repo/message/pfd-management-response.go:161-163; IsRequest /repo/message/pfd-management-response.go:171-173. -/
def tabPFDManagementResponse : KindTable where
  fields :=
      [(.Cause, .one), (.OffendingIE, .one)]
  lenOrder :=
      [.Cause, .OffendingIE]
  marshalOrder :=
      [.Cause, .OffendingIE]
  parseSwitch :=
      [(T.Cause, .Cause), (T.OffendingIE, .OffendingIE)]
  ctor := .args
      [.Cause, .OffendingIE]
  setLen := some [.Cause, .OffendingIE]
  session := false
  typeName := "PFD Management Response"
  isRequest := false
  msgType := 4

/-- AssociationSetupRequest: struct /repo/message/association-setup-request.go:12-28; constructor /repo/message/association-setup-request.go:31-75;
MarshalTo /repo/message/association-setup-request.go:88-186;
UnmarshalBinary /repo/message/association-setup-request.go:198-247;
MarshalLen /repo/message/association-setup-request.go:250-301; SetLength /repo/message/association-setup-request.go:304-306;
MessageTypeName /repo/message/association-setup-request.go:309-311; IsRequest /repo/message/association-setup-request.go:319-321. -/
def tabAssociationSetupRequest : KindTable where
  fields :=
      [(.NodeID, .one), (.RecoveryTimeStamp, .one), (.UPFunctionFeatures, .one),
       (.CPFunctionFeatures, .one), (.UserPlaneIPResourceInformation, .many),
       (.AlternativeSMFIPAddress, .many), (.SMFSetID, .one),
       (.PFCPSessionRetentionInformation, .one), (.UEIPAddressPoolInformation, .many),
       (.GTPUPathQoSControlInformation, .many), (.ClockDriftControlInformation, .many),
       (.UPFInstanceID, .one), (.PFCPASReqFlags, .one)]
  lenOrder :=
      [.NodeID, .RecoveryTimeStamp, .UPFunctionFeatures, .CPFunctionFeatures,
       .UserPlaneIPResourceInformation, .AlternativeSMFIPAddress, .SMFSetID,
       .PFCPSessionRetentionInformation, .UEIPAddressPoolInformation,
       .GTPUPathQoSControlInformation, .ClockDriftControlInformation, .UPFInstanceID,
       .PFCPASReqFlags]
  marshalOrder :=
      [.NodeID, .RecoveryTimeStamp, .UPFunctionFeatures, .CPFunctionFeatures,
       .UserPlaneIPResourceInformation, .AlternativeSMFIPAddress, .SMFSetID,
       .PFCPSessionRetentionInformation, .UEIPAddressPoolInformation,
       .GTPUPathQoSControlInformation, .ClockDriftControlInformation, .UPFInstanceID,
       .PFCPASReqFlags]
  parseSwitch :=
      [(T.NodeID, .NodeID), (T.RecoveryTimeStamp, .RecoveryTimeStamp),
       (T.UPFunctionFeatures, .UPFunctionFeatures), (T.CPFunctionFeatures, .CPFunctionFeatures),
       (T.UserPlaneIPResourceInformation, .UserPlaneIPResourceInformation),
       (T.AlternativeSMFIPAddress, .AlternativeSMFIPAddress), (T.SMFSetID, .SMFSetID),
       (T.PFCPSessionRetentionInformation, .PFCPSessionRetentionInformation),
       (T.UEIPAddressPoolInformation, .UEIPAddressPoolInformation),
       (T.GTPUPathQoSControlInformation, .GTPUPathQoSControlInformation),
       (T.ClockDriftControlInformation, .ClockDriftControlInformation),
       (T.NFInstanceID, .UPFInstanceID), (T.PFCPASReqFlags, .PFCPASReqFlags)]
  ctor := .switch
      [(T.NodeID, .NodeID), (T.RecoveryTimeStamp, .RecoveryTimeStamp),
       (T.UPFunctionFeatures, .UPFunctionFeatures), (T.CPFunctionFeatures, .CPFunctionFeatures),
       (T.UserPlaneIPResourceInformation, .UserPlaneIPResourceInformation),
       (T.AlternativeSMFIPAddress, .AlternativeSMFIPAddress), (T.SMFSetID, .SMFSetID),
       (T.PFCPSessionRetentionInformation, .PFCPSessionRetentionInformation),
       (T.UEIPAddressPoolInformation, .UEIPAddressPoolInformation),
       (T.GTPUPathQoSControlInformation, .GTPUPathQoSControlInformation),
       (T.ClockDriftControlInformation, .ClockDriftControlInformation),
       (T.NFInstanceID, .UPFInstanceID), (T.PFCPASReqFlags, .PFCPASReqFlags)]
  setLen := none
  session := false
  typeName := "Association Setup Request"
  isRequest := true
  msgType := 5

/-- AssociationSetupResponse: struct /repo/message/association-setup-response.go:12-27; constructor /repo/message/association-setup-response.go:30-72;
MarshalTo /repo/message/association-setup-response.go:85-177;
UnmarshalBinary /repo/message/association-setup-response.go:189-236;
MarshalLen /repo/message/association-setup-response.go:239-287; SetLength /repo/message/association-setup-response.go:290-292;
MessageTypeName /repo/message/association-setup-response.go:295-297; IsRequest /repo/message/association-setup-response.go:305-307. -/
def tabAssociationSetupResponse : KindTable where
  fields :=
      [(.NodeID, .one), (.Cause, .one), (.RecoveryTimeStamp, .one), (.UPFunctionFeatures, .one),
       (.CPFunctionFeatures, .one), (.UserPlaneIPResourceInformation, .many),
       (.AlternativeSMFIPAddress, .many), (.PFCPASRspFlags, .one),
       (.UEIPAddressPoolInformation, .many), (.GTPUPathQoSControlInformation, .many),
       (.ClockDriftControlInformation, .many), (.UPFInstanceID, .one)]
  lenOrder :=
      [.NodeID, .Cause, .RecoveryTimeStamp, .UPFunctionFeatures, .CPFunctionFeatures,
       .UserPlaneIPResourceInformation, .AlternativeSMFIPAddress, .PFCPASRspFlags,
       .UEIPAddressPoolInformation, .GTPUPathQoSControlInformation,
       .ClockDriftControlInformation, .UPFInstanceID]
  marshalOrder :=
      [.NodeID, .Cause, .RecoveryTimeStamp, .UPFunctionFeatures, .CPFunctionFeatures,
       .UserPlaneIPResourceInformation, .AlternativeSMFIPAddress, .PFCPASRspFlags,
       .UEIPAddressPoolInformation, .GTPUPathQoSControlInformation,
       .ClockDriftControlInformation, .UPFInstanceID]
  parseSwitch :=
      [(T.NodeID, .NodeID), (T.Cause, .Cause), (T.RecoveryTimeStamp, .RecoveryTimeStamp),
       (T.UPFunctionFeatures, .UPFunctionFeatures), (T.CPFunctionFeatures, .CPFunctionFeatures),
       (T.UserPlaneIPResourceInformation, .UserPlaneIPResourceInformation),
       (T.AlternativeSMFIPAddress, .AlternativeSMFIPAddress),
       (T.PFCPASRspFlags, .PFCPASRspFlags),
       (T.UEIPAddressPoolInformation, .UEIPAddressPoolInformation),
       (T.GTPUPathQoSControlInformation, .GTPUPathQoSControlInformation),
       (T.ClockDriftControlInformation, .ClockDriftControlInformation),
       (T.NFInstanceID, .UPFInstanceID)]
  ctor := .switch
      [(T.NodeID, .NodeID), (T.Cause, .Cause), (T.RecoveryTimeStamp, .RecoveryTimeStamp),
       (T.UPFunctionFeatures, .UPFunctionFeatures), (T.CPFunctionFeatures, .CPFunctionFeatures),
       (T.UserPlaneIPResourceInformation, .UserPlaneIPResourceInformation),
       (T.AlternativeSMFIPAddress, .AlternativeSMFIPAddress),
       (T.PFCPASRspFlags, .PFCPASRspFlags),
       (T.UEIPAddressPoolInformation, .UEIPAddressPoolInformation),
       (T.GTPUPathQoSControlInformation, .GTPUPathQoSControlInformation),
       (T.ClockDriftControlInformation, .ClockDriftControlInformation),
       (T.NFInstanceID, .UPFInstanceID)]
  setLen := none
  session := false
  typeName := "Association Setup Response"
  isRequest := false
  msgType := 6

/-- AssociationUpdateRequest: struct /repo/message/association-update-request.go:12-26; constructor /repo/message/association-update-request.go:29-69;
MarshalTo /repo/message/association-update-request.go:82-168;
UnmarshalBinary /repo/message/association-update-request.go:180-225;
MarshalLen /repo/message/association-update-request.go:228-273; SetLength /repo/message/association-update-request.go:276-278;
MessageTypeName /repo/message/association-update-request.go:281-283; IsRequest /repo/message/association-update-request.go:291-293. -/
def tabAssociationUpdateRequest : KindTable where
  fields :=
      [(.NodeID, .one), (.UPFunctionFeatures, .one), (.CPFunctionFeatures, .one),
       (.PFCPAssociationReleaseRequest, .one), (.GracefulReleasePeriod, .one),
       (.PFCPAUReqFlags, .one), (.AlternativeSMFIPAddress, .many),
       (.ClockDriftControlInformation, .many), (.UEIPAddressPoolInformation, .many),
       (.GTPUPathQoSControlInformation, .many), (.UEIPAddressUsageInformation, .many)]
  lenOrder :=
      [.NodeID, .UPFunctionFeatures, .CPFunctionFeatures, .PFCPAssociationReleaseRequest,
       .GracefulReleasePeriod, .PFCPAUReqFlags, .AlternativeSMFIPAddress,
       .ClockDriftControlInformation, .UEIPAddressPoolInformation,
       .GTPUPathQoSControlInformation, .UEIPAddressUsageInformation]
  marshalOrder :=
      [.NodeID, .UPFunctionFeatures, .CPFunctionFeatures, .PFCPAssociationReleaseRequest,
       .GracefulReleasePeriod, .PFCPAUReqFlags, .AlternativeSMFIPAddress,
       .ClockDriftControlInformation, .UEIPAddressPoolInformation,
       .GTPUPathQoSControlInformation, .UEIPAddressUsageInformation]
  parseSwitch :=
      [(T.NodeID, .NodeID), (T.UPFunctionFeatures, .UPFunctionFeatures),
       (T.CPFunctionFeatures, .CPFunctionFeatures),
       (T.PFCPAssociationReleaseRequest, .PFCPAssociationReleaseRequest),
       (T.GracefulReleasePeriod, .GracefulReleasePeriod), (T.PFCPAUReqFlags, .PFCPAUReqFlags),
       (T.AlternativeSMFIPAddress, .AlternativeSMFIPAddress),
       (T.ClockDriftControlInformation, .ClockDriftControlInformation),
       (T.UEIPAddressPoolInformation, .UEIPAddressPoolInformation),
       (T.GTPUPathQoSControlInformation, .GTPUPathQoSControlInformation),
       (T.UEIPAddressUsageInformation, .UEIPAddressUsageInformation)]
  ctor := .switch
      [(T.NodeID, .NodeID), (T.UPFunctionFeatures, .UPFunctionFeatures),
       (T.CPFunctionFeatures, .CPFunctionFeatures),
       (T.PFCPAssociationReleaseRequest, .PFCPAssociationReleaseRequest),
       (T.GracefulReleasePeriod, .GracefulReleasePeriod), (T.PFCPAUReqFlags, .PFCPAUReqFlags),
       (T.AlternativeSMFIPAddress, .AlternativeSMFIPAddress),
       (T.ClockDriftControlInformation, .ClockDriftControlInformation),
       (T.UEIPAddressPoolInformation, .UEIPAddressPoolInformation),
       (T.GTPUPathQoSControlInformation, .GTPUPathQoSControlInformation),
       (T.UEIPAddressUsageInformation, .UEIPAddressUsageInformation)]
  setLen := none
  session := false
  typeName := "Association Update Request"
  isRequest := true
  msgType := 7

/-- AssociationUpdateResponse: struct /repo/message/association-update-response.go:12-19; constructor /repo/message/association-update-response.go:22-48;
MarshalTo /repo/message/association-update-response.go:61-105;
UnmarshalBinary /repo/message/association-update-response.go:117-148;
MarshalLen /repo/message/association-update-response.go:151-175; SetLength /repo/message/association-update-response.go:178-180;
MessageTypeName /repo/message/association-update-response.go:183-185; IsRequest /repo/message/association-update-response.go:193-195. -/
def tabAssociationUpdateResponse : KindTable where
  fields :=
      [(.NodeID, .one), (.Cause, .one), (.UPFunctionFeatures, .one), (.CPFunctionFeatures, .one)]
  lenOrder :=
      [.NodeID, .Cause, .UPFunctionFeatures, .CPFunctionFeatures]
  marshalOrder :=
      [.NodeID, .Cause, .UPFunctionFeatures, .CPFunctionFeatures]
  parseSwitch :=
      [(T.NodeID, .NodeID), (T.Cause, .Cause), (T.UPFunctionFeatures, .UPFunctionFeatures),
       (T.CPFunctionFeatures, .CPFunctionFeatures)]
  ctor := .switch
      [(T.NodeID, .NodeID), (T.Cause, .Cause), (T.UPFunctionFeatures, .UPFunctionFeatures),
       (T.CPFunctionFeatures, .CPFunctionFeatures)]
  setLen := none
  session := false
  typeName := "Association Update Request"
  isRequest := false
  msgType := 8

/-- AssociationReleaseRequest: struct /repo/message/association-release-request.go:12-16; constructor /repo/message/association-release-request.go:19-32;
MarshalTo /repo/message/association-release-request.go:45-71;
UnmarshalBinary /repo/message/association-release-request.go:83-108;
MarshalLen /repo/message/association-release-request.go:111-126; SetLength /repo/message/association-release-request.go:129-131;
MessageTypeName /repo/message/association-release-request.go:134-136; IsRequest /repo/message/association-release-request.go:144-146. -/
def tabAssociationReleaseRequest : KindTable where
  fields :=
      [(.NodeID, .one)]
  lenOrder :=
      [.NodeID]
  marshalOrder :=
      [.NodeID]
  parseSwitch :=
      [(T.NodeID, .NodeID)]
  ctor := .args
      [.NodeID]
  setLen := none
  session := false
  typeName := "Association Release Request"
  isRequest := true
  msgType := 9

/-- AssociationReleaseResponse: struct /repo/message/association-release-response.go:12-17; constructor /repo/message/association-release-response.go:20-34;
MarshalTo /repo/message/association-release-response.go:47-79;
UnmarshalBinary /repo/message/association-release-response.go:91-118;
MarshalLen /repo/message/association-release-response.go:121-139; SetLength /repo/message/association-release-response.go:142-144;
MessageTypeName /repo/message/association-release-response.go:147-149; IsRequest /repo/message/association-release-response.go:157-159. -/
def tabAssociationReleaseResponse : KindTable where
  fields :=
      [(.NodeID, .one), (.Cause, .one)]
  lenOrder :=
      [.NodeID, .Cause]
  marshalOrder :=
      [.NodeID, .Cause]
  parseSwitch :=
      [(T.NodeID, .NodeID), (T.Cause, .Cause)]
  ctor := .args
      [.NodeID, .Cause]
  setLen := none
  session := false
  typeName := "Association Release Response"
  isRequest := false
  msgType := 10

/-- VersionNotSupportedResponse: struct /repo/message/version-not-supported-response.go:12-15; constructor /repo/message/version-not-supported-response.go:18-30;
MarshalTo /repo/message/version-not-supported-response.go:43-62;
UnmarshalBinary /repo/message/version-not-supported-response.go:74-92;
MarshalLen /repo/message/version-not-supported-response.go:95-106; SetLength /repo/message/version-not-supported-response.go:109-111;
MessageTypeName /repo/message/version-not-supported-response.go:114-116; IsRequest /repo/message/version-not-supported-response.go:124-126. -/
def tabVersionNotSupportedResponse : KindTable where
  fields :=
      []
  lenOrder :=
      []
  marshalOrder :=
      []
  parseSwitch :=
      []
  ctor := .args
      []
  setLen := none
  session := false
  typeName := "Version Not Supported Response"
  isRequest := false
  msgType := 11

/-- NodeReportRequest: struct /repo/message/node-report-request.go:12-21; constructor /repo/message/node-report-request.go:24-54;
MarshalTo /repo/message/node-report-request.go:67-123;
UnmarshalBinary /repo/message/node-report-request.go:135-170;
MarshalLen /repo/message/node-report-request.go:173-203; SetLength /repo/message/node-report-request.go:206-208;
MessageTypeName /repo/message/node-report-request.go:211-213; IsRequest /repo/message/node-report-request.go:221-223. -/
def tabNodeReportRequest : KindTable where
  fields :=
      [(.NodeID, .one), (.NodeReportType, .one), (.UserPlanePathFailureReport, .one),
       (.UserPlanePathRecoveryReport, .one), (.ClockDriftReport, .many),
       (.GTPUPathQoSReport, .many)]
  lenOrder :=
      [.NodeID, .NodeReportType, .UserPlanePathFailureReport, .UserPlanePathRecoveryReport,
       .ClockDriftReport, .GTPUPathQoSReport]
  marshalOrder :=
      [.NodeID, .NodeReportType, .UserPlanePathFailureReport, .UserPlanePathRecoveryReport,
       .ClockDriftReport, .GTPUPathQoSReport]
  parseSwitch :=
      [(T.NodeID, .NodeID), (T.NodeReportType, .NodeReportType),
       (T.UserPlanePathFailureReport, .UserPlanePathFailureReport),
       (T.UserPlanePathRecoveryReport, .UserPlanePathRecoveryReport),
       (T.ClockDriftReport, .ClockDriftReport), (T.GTPUPathQoSReport, .GTPUPathQoSReport)]
  ctor := .switch
      [(T.NodeID, .NodeID), (T.NodeReportType, .NodeReportType),
       (T.UserPlanePathFailureReport, .UserPlanePathFailureReport),
       (T.UserPlanePathRecoveryReport, .UserPlanePathRecoveryReport),
       (T.ClockDriftReport, .ClockDriftReport), (T.GTPUPathQoSReport, .GTPUPathQoSReport)]
  setLen := none
  session := false
  typeName := "Node Report Request"
  isRequest := true
  msgType := 12

/-- NodeReportResponse: struct /repo/message/node-report-response.go:12-18; constructor /repo/message/node-report-response.go:21-36;
MarshalTo /repo/message/node-report-response.go:49-87;
UnmarshalBinary /repo/message/node-report-response.go:99-128;
MarshalLen /repo/message/node-report-response.go:131-152; SetLength /repo/message/node-report-response.go:155-157;
MessageTypeName /repo/message/node-report-response.go:160-162; IsRequest /repo/message/node-report-response.go:170-172. -/
def tabNodeReportResponse : KindTable where
  fields :=
      [(.NodeID, .one), (.Cause, .one), (.OffendingIE, .one)]
  lenOrder :=
      [.NodeID, .Cause, .OffendingIE]
  marshalOrder :=
      [.NodeID, .Cause, .OffendingIE]
  parseSwitch :=
      [(T.NodeID, .NodeID), (T.Cause, .Cause), (T.OffendingIE, .OffendingIE)]
  ctor := .args
      [.NodeID, .Cause, .OffendingIE]
  setLen := none
  session := false
  typeName := "Node Report Response"
  isRequest := false
  msgType := 13

/-- SessionSetDeletionRequest: struct /repo/message/session-set-deletion-request.go:12-17; constructor /repo/message/session-set-deletion-request.go:20-34;
MarshalTo /repo/message/session-set-deletion-request.go:47-79;
UnmarshalBinary /repo/message/session-set-deletion-request.go:91-118;
MarshalLen /repo/message/session-set-deletion-request.go:121-139; SetLength /repo/message/session-set-deletion-request.go:142-144;
MessageTypeName /repo/message/session-set-deletion-request.go:147-149; IsRequest /repo/message/session-set-deletion-request.go:157-159. -/
def tabSessionSetDeletionRequest : KindTable where
  fields :=
      [(.NodeID, .one), (.FQCSID, .one)]
  lenOrder :=
      [.NodeID, .FQCSID]
  marshalOrder :=
      [.NodeID, .FQCSID]
  parseSwitch :=
      [(T.NodeID, .NodeID), (T.FQCSID, .FQCSID)]
  ctor := .args
      [.NodeID, .FQCSID]
  setLen := none
  session := false
  typeName := "Session Set Deletion Request"
  isRequest := true
  msgType := 14

/-- SessionSetDeletionResponse: struct /repo/message/session-set-deletion-response.go:12-18; constructor /repo/message/session-set-deletion-response.go:21-36;
MarshalTo /repo/message/session-set-deletion-response.go:49-87;
UnmarshalBinary /repo/message/session-set-deletion-response.go:99-128;
MarshalLen /repo/message/session-set-deletion-response.go:131-152; SetLength /repo/message/session-set-deletion-response.go:155-157;
MessageTypeName /repo/message/session-set-deletion-response.go:160-162; IsRequest /repo/message/session-set-deletion-response.go:170-172. -/
def tabSessionSetDeletionResponse : KindTable where
  fields :=
      [(.NodeID, .one), (.Cause, .one), (.OffendingIE, .one)]
  lenOrder :=
      [.NodeID, .Cause, .OffendingIE]
  marshalOrder :=
      [.NodeID, .Cause, .OffendingIE]
  parseSwitch :=
      [(T.NodeID, .NodeID), (T.Cause, .Cause), (T.OffendingIE, .OffendingIE)]
  ctor := .args
      [.NodeID, .Cause, .OffendingIE]
  setLen := none
  session := false
  typeName := "Node Report Response"
  isRequest := false
  msgType := 15

/-- SessionEstablishmentRequest: struct /repo/message/session-establishment-request.go:14-39; constructor /repo/message/session-establishment-request.go:42-104;
MarshalTo /repo/message/session-establishment-request.go:117-269;
UnmarshalBinary /repo/message/session-establishment-request.go:281-348;
MarshalLen /repo/message/session-establishment-request.go:351-429; SetLength /repo/message/session-establishment-request.go:432-434;
MessageTypeName /repo/message/session-establishment-request.go:437-439; IsRequest /repo/message/session-establishment-request.go:447-449. -/
def tabSessionEstablishmentRequest : KindTable where
  fields :=
      [(.NodeID, .one), (.CPFSEID, .one), (.CreatePDR, .many), (.CreateFAR, .many),
       (.CreateURR, .many), (.CreateQER, .many), (.CreateBAR, .one),
       (.CreateTrafficEndpoint, .many), (.PDNType, .one), (.FQCSID, .one),
       (.UserPlaneInactivityTimer, .one), (.UserID, .one), (.TraceInformation, .one),
       (.APNDNN, .one), (.CreateMAR, .many), (.PFCPSEReqFlags, .one),
       (.CreateBridgeInfoForTSC, .one), (.CreateSRR, .many),
       (.ProvideATSSSControlInformation, .one), (.RecoveryTimeStamp, .one), (.SNSSAI, .one),
       (.ProvideRDSConfigurationInformation, .one)]
  lenOrder :=
      [.NodeID, .CPFSEID, .CreatePDR, .CreateFAR, .CreateURR, .CreateQER, .CreateBAR,
       .CreateTrafficEndpoint, .PDNType, .FQCSID, .UserPlaneInactivityTimer, .UserID,
       .TraceInformation, .APNDNN, .CreateMAR, .PFCPSEReqFlags, .CreateBridgeInfoForTSC,
       .CreateSRR, .ProvideATSSSControlInformation, .RecoveryTimeStamp, .SNSSAI,
       .ProvideRDSConfigurationInformation]
  marshalOrder :=
      [.NodeID, .CPFSEID, .CreatePDR, .CreateFAR, .CreateURR, .CreateQER, .CreateBAR,
       .CreateTrafficEndpoint, .PDNType, .FQCSID, .UserPlaneInactivityTimer, .UserID,
       .TraceInformation, .APNDNN, .CreateMAR, .PFCPSEReqFlags, .CreateBridgeInfoForTSC,
       .CreateSRR, .ProvideATSSSControlInformation, .RecoveryTimeStamp, .SNSSAI,
       .ProvideRDSConfigurationInformation]
  parseSwitch :=
      [(T.NodeID, .NodeID), (T.FSEID, .CPFSEID), (T.CreatePDR, .CreatePDR),
       (T.CreateFAR, .CreateFAR), (T.CreateURR, .CreateURR), (T.CreateQER, .CreateQER),
       (T.CreateBAR, .CreateBAR), (T.CreateTrafficEndpoint, .CreateTrafficEndpoint),
       (T.PDNType, .PDNType), (T.FQCSID, .FQCSID),
       (T.UserPlaneInactivityTimer, .UserPlaneInactivityTimer), (T.UserID, .UserID),
       (T.TraceInformation, .TraceInformation), (T.APNDNN, .APNDNN), (T.CreateMAR, .CreateMAR),
       (T.PFCPSEReqFlags, .PFCPSEReqFlags), (T.CreateBridgeInfoForTSC, .CreateBridgeInfoForTSC),
       (T.CreateSRR, .CreateSRR),
       (T.ProvideATSSSControlInformation, .ProvideATSSSControlInformation),
       (T.RecoveryTimeStamp, .RecoveryTimeStamp), (T.SNSSAI, .SNSSAI),
       (T.ProvideRDSConfigurationInformation, .ProvideRDSConfigurationInformation)]
  ctor := .switch
      [(T.NodeID, .NodeID), (T.FSEID, .CPFSEID), (T.CreatePDR, .CreatePDR),
       (T.CreateFAR, .CreateFAR), (T.CreateURR, .CreateURR), (T.CreateQER, .CreateQER),
       (T.CreateBAR, .CreateBAR), (T.CreateTrafficEndpoint, .CreateTrafficEndpoint),
       (T.PDNType, .PDNType), (T.FQCSID, .FQCSID),
       (T.UserPlaneInactivityTimer, .UserPlaneInactivityTimer), (T.UserID, .UserID),
       (T.TraceInformation, .TraceInformation), (T.APNDNN, .APNDNN), (T.CreateMAR, .CreateMAR),
       (T.PFCPSEReqFlags, .PFCPSEReqFlags), (T.CreateBridgeInfoForTSC, .CreateBridgeInfoForTSC),
       (T.CreateSRR, .CreateSRR),
       (T.ProvideATSSSControlInformation, .ProvideATSSSControlInformation),
       (T.RecoveryTimeStamp, .RecoveryTimeStamp), (T.SNSSAI, .SNSSAI),
       (T.ProvideRDSConfigurationInformation, .ProvideRDSConfigurationInformation)]
  setLen := none
  session := true
  typeName := "Session Establishment Request"
  isRequest := true
  msgType := 50

/-- SessionEstablishmentResponse: struct /repo/message/session-establishment-response.go:14-29; constructor /repo/message/session-establishment-response.go:32-74;
MarshalTo /repo/message/session-establishment-response.go:87-179;
UnmarshalBinary /repo/message/session-establishment-response.go:191-238;
MarshalLen /repo/message/session-establishment-response.go:241-289; SetLength /repo/message/session-establishment-response.go:292-294;
MessageTypeName /repo/message/session-establishment-response.go:297-299; IsRequest /repo/message/session-establishment-response.go:307-309. -/
def tabSessionEstablishmentResponse : KindTable where
  fields :=
      [(.NodeID, .one), (.Cause, .one), (.OffendingIE, .one), (.UPFSEID, .one),
       (.CreatedPDR, .many), (.LoadControlInformation, .one),
       (.OverloadControlInformation, .one), (.FQCSID, .one), (.FailedRuleID, .one),
       (.CreatedTrafficEndpoint, .many), (.CreatedBridgeInfoForTSC, .one),
       (.ATSSSControlParameters, .one)]
  lenOrder :=
      [.NodeID, .Cause, .OffendingIE, .UPFSEID, .CreatedPDR, .LoadControlInformation,
       .OverloadControlInformation, .FQCSID, .FailedRuleID, .CreatedTrafficEndpoint,
       .CreatedBridgeInfoForTSC, .ATSSSControlParameters]
  marshalOrder :=
      [.NodeID, .Cause, .OffendingIE, .UPFSEID, .CreatedPDR, .LoadControlInformation,
       .OverloadControlInformation, .FQCSID, .FailedRuleID, .CreatedTrafficEndpoint,
       .CreatedBridgeInfoForTSC, .ATSSSControlParameters]
  parseSwitch :=
      [(T.NodeID, .NodeID), (T.Cause, .Cause), (T.OffendingIE, .OffendingIE),
       (T.FSEID, .UPFSEID), (T.CreatedPDR, .CreatedPDR),
       (T.LoadControlInformation, .LoadControlInformation),
       (T.OverloadControlInformation, .OverloadControlInformation), (T.FQCSID, .FQCSID),
       (T.FailedRuleID, .FailedRuleID), (T.CreatedTrafficEndpoint, .CreatedTrafficEndpoint),
       (T.CreatedBridgeInfoForTSC, .CreatedBridgeInfoForTSC),
       (T.ATSSSControlParameters, .ATSSSControlParameters)]
  ctor := .switch
      [(T.NodeID, .NodeID), (T.Cause, .Cause), (T.OffendingIE, .OffendingIE),
       (T.FSEID, .UPFSEID), (T.CreatedPDR, .CreatedPDR),
       (T.LoadControlInformation, .LoadControlInformation),
       (T.OverloadControlInformation, .OverloadControlInformation), (T.FQCSID, .FQCSID),
       (T.FailedRuleID, .FailedRuleID), (T.CreatedTrafficEndpoint, .CreatedTrafficEndpoint),
       (T.CreatedBridgeInfoForTSC, .CreatedBridgeInfoForTSC),
       (T.ATSSSControlParameters, .ATSSSControlParameters)]
  setLen := none
  session := true
  typeName := "Session Establishment Response"
  isRequest := false
  msgType := 51

/-- SessionModificationRequest: struct /repo/message/session-modification-request.go:12-53; constructor /repo/message/session-modification-request.go:56-150;
MarshalTo /repo/message/session-modification-request.go:163-411;
UnmarshalBinary /repo/message/session-modification-request.go:423-522;
MarshalLen /repo/message/session-modification-request.go:525-651; SetLength /repo/message/session-modification-request.go:654-656;
MessageTypeName /repo/message/session-modification-request.go:659-661; IsRequest /repo/message/session-modification-request.go:669-671. -/
def tabSessionModificationRequest : KindTable where
  fields :=
      [(.CPFSEID, .one), (.RemovePDR, .many), (.RemoveFAR, .many), (.RemoveURR, .many),
       (.RemoveQER, .many), (.RemoveBAR, .one), (.RemoveTrafficEndpoint, .many),
       (.CreatePDR, .many), (.CreateFAR, .many), (.CreateURR, .many), (.CreateQER, .many),
       (.CreateBAR, .one), (.CreateTrafficEndpoint, .many), (.UpdatePDR, .many),
       (.UpdateFAR, .many), (.UpdateURR, .many), (.UpdateQER, .many), (.UpdateBAR, .one),
       (.UpdateTrafficEndpoint, .many), (.PFCPSMReqFlags, .one), (.QueryURR, .many),
       (.FQCSID, .one), (.UserPlaneInactivityTimer, .one), (.QueryURRReference, .one),
       (.TraceInformation, .one), (.RemoveMAR, .many), (.UpdateMAR, .many), (.CreateMAR, .many),
       (.NodeID, .one), (.TSCManagementInformation, .one), (.RemoveSRR, .many),
       (.CreateSRR, .many), (.UpdateSRR, .many), (.ProvideATSSSControlInformation, .one),
       (.EthernetContextInformation, .one), (.AccessAvailabilityInformation, .many),
       (.QueryPacketRateStatus, .many), (.SNSSAI, .one)]
  lenOrder :=
      [.CPFSEID, .RemovePDR, .RemoveFAR, .RemoveURR, .RemoveQER, .RemoveBAR,
       .RemoveTrafficEndpoint, .CreatePDR, .CreateFAR, .CreateURR, .CreateQER, .CreateBAR,
       .CreateTrafficEndpoint, .UpdatePDR, .UpdateFAR, .UpdateURR, .UpdateQER, .UpdateBAR,
       .UpdateTrafficEndpoint, .PFCPSMReqFlags, .QueryURR, .FQCSID, .UserPlaneInactivityTimer,
       .QueryURRReference, .TraceInformation, .RemoveMAR, .UpdateMAR, .CreateMAR, .NodeID,
       .TSCManagementInformation, .RemoveSRR, .CreateSRR, .UpdateSRR,
       .ProvideATSSSControlInformation, .EthernetContextInformation,
       .AccessAvailabilityInformation, .QueryPacketRateStatus, .SNSSAI]
  marshalOrder :=
      [.CPFSEID, .RemovePDR, .RemoveFAR, .RemoveURR, .RemoveQER, .RemoveBAR,
       .RemoveTrafficEndpoint, .CreatePDR, .CreateFAR, .CreateURR, .CreateQER, .CreateBAR,
       .CreateTrafficEndpoint, .UpdatePDR, .UpdateFAR, .UpdateURR, .UpdateQER, .UpdateBAR,
       .UpdateTrafficEndpoint, .PFCPSMReqFlags, .QueryURR, .FQCSID, .UserPlaneInactivityTimer,
       .QueryURRReference, .TraceInformation, .RemoveMAR, .UpdateMAR, .CreateMAR, .NodeID,
       .TSCManagementInformation, .RemoveSRR, .CreateSRR, .UpdateSRR,
       .ProvideATSSSControlInformation, .EthernetContextInformation,
       .AccessAvailabilityInformation, .QueryPacketRateStatus, .SNSSAI]
  parseSwitch :=
      [(T.FSEID, .CPFSEID), (T.RemovePDR, .RemovePDR), (T.RemoveFAR, .RemoveFAR),
       (T.RemoveURR, .RemoveURR), (T.RemoveQER, .RemoveQER), (T.RemoveBAR, .RemoveBAR),
       (T.RemoveTrafficEndpoint, .RemoveTrafficEndpoint), (T.CreatePDR, .CreatePDR),
       (T.CreateFAR, .CreateFAR), (T.CreateURR, .CreateURR), (T.CreateQER, .CreateQER),
       (T.CreateBAR, .CreateBAR), (T.CreateTrafficEndpoint, .CreateTrafficEndpoint),
       (T.UpdatePDR, .UpdatePDR), (T.UpdateFAR, .UpdateFAR), (T.UpdateURR, .UpdateURR),
       (T.UpdateQER, .UpdateQER), (T.UpdateBARWithinSessionModificationRequest, .UpdateBAR),
       (T.UpdateTrafficEndpoint, .UpdateTrafficEndpoint), (T.PFCPSMReqFlags, .PFCPSMReqFlags),
       (T.QueryURR, .QueryURR), (T.FQCSID, .FQCSID),
       (T.UserPlaneInactivityTimer, .UserPlaneInactivityTimer),
       (T.QueryURRReference, .QueryURRReference), (T.TraceInformation, .TraceInformation),
       (T.RemoveMAR, .RemoveMAR), (T.UpdateMAR, .UpdateMAR), (T.CreateMAR, .CreateMAR),
       (T.NodeID, .NodeID),
       (T.TSCManagementInformationWithinSessionModificationRequest, .TSCManagementInformation),
       (T.RemoveSRR, .RemoveSRR), (T.CreateSRR, .CreateSRR), (T.UpdateSRR, .UpdateSRR),
       (T.ProvideATSSSControlInformation, .ProvideATSSSControlInformation),
       (T.EthernetContextInformation, .EthernetContextInformation),
       (T.AccessAvailabilityInformation, .AccessAvailabilityInformation),
       (T.QueryPacketRateStatusWithinSessionModificationRequest, .QueryPacketRateStatus),
       (T.SNSSAI, .SNSSAI)]
  ctor := .switch
      [(T.FSEID, .CPFSEID), (T.RemovePDR, .RemovePDR), (T.RemoveFAR, .RemoveFAR),
       (T.RemoveURR, .RemoveURR), (T.RemoveQER, .RemoveQER), (T.RemoveBAR, .RemoveBAR),
       (T.RemoveTrafficEndpoint, .RemoveTrafficEndpoint), (T.CreatePDR, .CreatePDR),
       (T.CreateFAR, .CreateFAR), (T.CreateURR, .CreateURR), (T.CreateQER, .CreateQER),
       (T.CreateBAR, .CreateBAR), (T.CreateTrafficEndpoint, .CreateTrafficEndpoint),
       (T.UpdatePDR, .UpdatePDR), (T.UpdateFAR, .UpdateFAR), (T.UpdateURR, .UpdateURR),
       (T.UpdateQER, .UpdateQER), (T.UpdateBARWithinSessionModificationRequest, .UpdateBAR),
       (T.UpdateTrafficEndpoint, .UpdateTrafficEndpoint), (T.PFCPSMReqFlags, .PFCPSMReqFlags),
       (T.QueryURR, .QueryURR), (T.FQCSID, .FQCSID),
       (T.UserPlaneInactivityTimer, .UserPlaneInactivityTimer),
       (T.QueryURRReference, .QueryURRReference), (T.TraceInformation, .TraceInformation),
       (T.RemoveMAR, .RemoveMAR), (T.UpdateMAR, .UpdateMAR), (T.CreateMAR, .CreateMAR),
       (T.NodeID, .NodeID),
       (T.TSCManagementInformationWithinSessionModificationRequest, .TSCManagementInformation),
       (T.RemoveSRR, .RemoveSRR), (T.CreateSRR, .CreateSRR), (T.UpdateSRR, .UpdateSRR),
       (T.ProvideATSSSControlInformation, .ProvideATSSSControlInformation),
       (T.EthernetContextInformation, .EthernetContextInformation),
       (T.AccessAvailabilityInformation, .AccessAvailabilityInformation),
       (T.QueryPacketRateStatusWithinSessionModificationRequest, .QueryPacketRateStatus),
       (T.SNSSAI, .SNSSAI)]
  setLen := none
  session := true
  typeName := "Session Modification Request"
  isRequest := true
  msgType := 52

/-- SessionModificationResponse: struct /repo/message/session-modification-response.go:16-32; constructor /repo/message/session-modification-response.go:35-79;
MarshalTo /repo/message/session-modification-response.go:92-190;
UnmarshalBinary /repo/message/session-modification-response.go:202-251;
MarshalLen /repo/message/session-modification-response.go:254-305; SetLength /repo/message/session-modification-response.go:308-310;
MessageTypeName /repo/message/session-modification-response.go:313-315; IsRequest /repo/message/session-modification-response.go:323-325. -/
def tabSessionModificationResponse : KindTable where
  fields :=
      [(.Cause, .one), (.OffendingIE, .one), (.CreatedPDR, .many),
       (.LoadControlInformation, .one), (.OverloadControlInformation, .one),
       (.UsageReport, .many), (.FailedRuleID, .one), (.AdditionalUsageReportsInformation, .one),
       (.CreatedUpdatedTrafficEndpoint, .many), (.CreatedBridgeInfoForTSC, .one),
       (.ATSSSControlParameters, .one), (.UpdatedPDR, .many), (.PacketRateStatusReport, .many)]
  lenOrder :=
      [.Cause, .OffendingIE, .CreatedPDR, .LoadControlInformation, .OverloadControlInformation,
       .UsageReport, .FailedRuleID, .AdditionalUsageReportsInformation,
       .CreatedUpdatedTrafficEndpoint, .CreatedBridgeInfoForTSC, .ATSSSControlParameters,
       .UpdatedPDR, .PacketRateStatusReport]
  marshalOrder :=
      [.Cause, .OffendingIE, .CreatedPDR, .LoadControlInformation, .OverloadControlInformation,
       .UsageReport, .FailedRuleID, .AdditionalUsageReportsInformation,
       .CreatedUpdatedTrafficEndpoint, .CreatedBridgeInfoForTSC, .ATSSSControlParameters,
       .UpdatedPDR, .PacketRateStatusReport]
  parseSwitch :=
      [(T.Cause, .Cause), (T.OffendingIE, .OffendingIE), (T.CreatedPDR, .CreatedPDR),
       (T.LoadControlInformation, .LoadControlInformation),
       (T.OverloadControlInformation, .OverloadControlInformation),
       (T.UsageReportWithinSessionModificationResponse, .UsageReport),
       (T.FailedRuleID, .FailedRuleID),
       (T.AdditionalUsageReportsInformation, .AdditionalUsageReportsInformation),
       (T.CreatedTrafficEndpoint, .CreatedUpdatedTrafficEndpoint),
       (T.CreatedBridgeInfoForTSC, .CreatedBridgeInfoForTSC),
       (T.ATSSSControlParameters, .ATSSSControlParameters), (T.UpdatedPDR, .UpdatedPDR),
       (T.PacketRateStatusReport, .PacketRateStatusReport)]
  ctor := .switch
      [(T.Cause, .Cause), (T.OffendingIE, .OffendingIE), (T.CreatedPDR, .CreatedPDR),
       (T.LoadControlInformation, .LoadControlInformation),
       (T.OverloadControlInformation, .OverloadControlInformation),
       (T.UsageReportWithinSessionModificationResponse, .UsageReport),
       (T.FailedRuleID, .FailedRuleID),
       (T.AdditionalUsageReportsInformation, .AdditionalUsageReportsInformation),
       (T.CreatedTrafficEndpoint, .CreatedUpdatedTrafficEndpoint),
       (T.CreatedBridgeInfoForTSC, .CreatedBridgeInfoForTSC),
       (T.ATSSSControlParameters, .ATSSSControlParameters), (T.UpdatedPDR, .UpdatedPDR),
       (T.PacketRateStatusReport, .PacketRateStatusReport)]
  setLen := none
  session := true
  typeName := "Session Modification Response"
  isRequest := false
  msgType := 53

/-- SessionDeletionRequest: struct /repo/message/session-deletion-request.go:12-15; constructor /repo/message/session-deletion-request.go:18-30;
MarshalTo /repo/message/session-deletion-request.go:43-62;
UnmarshalBinary /repo/message/session-deletion-request.go:74-92;
MarshalLen /repo/message/session-deletion-request.go:95-106; SetLength /repo/message/session-deletion-request.go:109-111;
MessageTypeName /repo/message/session-deletion-request.go:114-116; IsRequest /repo/message/session-deletion-request.go:124-126. -/
def tabSessionDeletionRequest : KindTable where
  fields :=
      []
  lenOrder :=
      []
  marshalOrder :=
      []
  parseSwitch :=
      []
  ctor := .args
      []
  setLen := none
  session := true
  typeName := "Session Deletion Request"
  isRequest := true
  msgType := 54

/-- SessionDeletionResponse: struct /repo/message/session-deletion-response.go:14-23; constructor /repo/message/session-deletion-response.go:26-56;
MarshalTo /repo/message/session-deletion-response.go:69-126;
UnmarshalBinary /repo/message/session-deletion-response.go:138-173;
MarshalLen /repo/message/session-deletion-response.go:176-206; SetLength /repo/message/session-deletion-response.go:209-211;
MessageTypeName /repo/message/session-deletion-response.go:214-216; IsRequest /repo/message/session-deletion-response.go:224-226. -/
def tabSessionDeletionResponse : KindTable where
  fields :=
      [(.Cause, .one), (.OffendingIE, .one), (.LoadControlInformation, .one),
       (.OverloadControlInformation, .one), (.UsageReport, .many),
       (.AdditionalUsageReportsInformation, .one)]
  lenOrder :=
      [.Cause, .OffendingIE, .LoadControlInformation, .OverloadControlInformation, .UsageReport,
       .AdditionalUsageReportsInformation]
  marshalOrder :=
      [.Cause, .OffendingIE, .LoadControlInformation, .OverloadControlInformation, .UsageReport,
       .AdditionalUsageReportsInformation]
  parseSwitch :=
      [(T.Cause, .Cause), (T.OffendingIE, .OffendingIE),
       (T.LoadControlInformation, .LoadControlInformation),
       (T.OverloadControlInformation, .OverloadControlInformation),
       (T.UsageReportWithinSessionDeletionResponse, .UsageReport),
       (T.AdditionalUsageReportsInformation, .AdditionalUsageReportsInformation)]
  ctor := .switch
      [(T.Cause, .Cause), (T.OffendingIE, .OffendingIE),
       (T.LoadControlInformation, .LoadControlInformation),
       (T.OverloadControlInformation, .OverloadControlInformation),
       (T.UsageReportWithinSessionDeletionResponse, .UsageReport),
       (T.AdditionalUsageReportsInformation, .AdditionalUsageReportsInformation)]
  setLen := none
  session := true
  typeName := "Session Deletion Response"
  isRequest := false
  msgType := 55

/-- SessionReportRequest: struct /repo/message/session-report-request.go:14-29; constructor /repo/message/session-report-request.go:32-74;
MarshalTo /repo/message/session-report-request.go:87-179;
UnmarshalBinary /repo/message/session-report-request.go:191-238;
MarshalLen /repo/message/session-report-request.go:241-289; SetLength /repo/message/session-report-request.go:292-294;
MessageTypeName /repo/message/session-report-request.go:297-299; IsRequest /repo/message/session-report-request.go:307-309. -/
def tabSessionReportRequest : KindTable where
  fields :=
      [(.ReportType, .one), (.DownlinkDataReport, .one), (.UsageReport, .many),
       (.ErrorIndicationReport, .one), (.LoadControlInformation, .one),
       (.OverloadControlInformation, .one), (.AdditionalUsageReportsInformation, .one),
       (.PFCPSRReqFlags, .one), (.OldCPFSEID, .one), (.PacketRateStatusReport, .one),
       (.PortManagementInformationForTSC, .one), (.SessionReport, .many)]
  lenOrder :=
      [.ReportType, .DownlinkDataReport, .UsageReport, .ErrorIndicationReport,
       .LoadControlInformation, .OverloadControlInformation, .AdditionalUsageReportsInformation,
       .PFCPSRReqFlags, .OldCPFSEID, .PacketRateStatusReport, .PortManagementInformationForTSC,
       .SessionReport]
  marshalOrder :=
      [.ReportType, .DownlinkDataReport, .UsageReport, .ErrorIndicationReport,
       .LoadControlInformation, .OverloadControlInformation, .AdditionalUsageReportsInformation,
       .PFCPSRReqFlags, .OldCPFSEID, .PacketRateStatusReport, .PortManagementInformationForTSC,
       .SessionReport]
  parseSwitch :=
      [(T.ReportType, .ReportType), (T.DownlinkDataReport, .DownlinkDataReport),
       (T.UsageReportWithinSessionReportRequest, .UsageReport),
       (T.ErrorIndicationReport, .ErrorIndicationReport),
       (T.LoadControlInformation, .LoadControlInformation),
       (T.OverloadControlInformation, .OverloadControlInformation),
       (T.AdditionalUsageReportsInformation, .AdditionalUsageReportsInformation),
       (T.PFCPSRReqFlags, .PFCPSRReqFlags), (T.FSEID, .OldCPFSEID),
       (T.PacketRateStatusReport, .PacketRateStatusReport),
       (T.PortManagementInformationForTSCWithinSessionReportRequest, .PortManagementInformationForTSC),
       (T.SessionReport, .SessionReport)]
  ctor := .switch
      [(T.ReportType, .ReportType), (T.DownlinkDataReport, .DownlinkDataReport),
       (T.UsageReportWithinSessionReportRequest, .UsageReport),
       (T.ErrorIndicationReport, .ErrorIndicationReport),
       (T.LoadControlInformation, .LoadControlInformation),
       (T.OverloadControlInformation, .OverloadControlInformation),
       (T.AdditionalUsageReportsInformation, .AdditionalUsageReportsInformation),
       (T.PFCPSRReqFlags, .PFCPSRReqFlags), (T.FSEID, .OldCPFSEID),
       (T.PacketRateStatusReport, .PacketRateStatusReport),
       (T.PortManagementInformationForTSCWithinSessionReportRequest, .PortManagementInformationForTSC),
       (T.SessionReport, .SessionReport)]
  setLen := none
  session := true
  typeName := "Session Report Request"
  isRequest := true
  msgType := 56

/-- SessionReportResponse: struct /repo/message/session-report-response.go:12-22; constructor /repo/message/session-report-response.go:25-57;
MarshalTo /repo/message/session-report-response.go:70-132;
UnmarshalBinary /repo/message/session-report-response.go:144-181;
MarshalLen /repo/message/session-report-response.go:184-217; SetLength /repo/message/session-report-response.go:220-222;
MessageTypeName /repo/message/session-report-response.go:225-227; IsRequest /repo/message/session-report-response.go:235-237. -/
def tabSessionReportResponse : KindTable where
  fields :=
      [(.Cause, .one), (.OffendingIE, .one), (.UpdateBAR, .one), (.PFCPSRRspFlags, .one),
       (.CPFSEID, .one), (.N4UFTEID, .one), (.AlternativeSMFIPAddress, .one)]
  lenOrder :=
      [.Cause, .OffendingIE, .UpdateBAR, .PFCPSRRspFlags, .CPFSEID, .N4UFTEID,
       .AlternativeSMFIPAddress]
  marshalOrder :=
      [.Cause, .OffendingIE, .UpdateBAR, .PFCPSRRspFlags, .CPFSEID, .N4UFTEID,
       .AlternativeSMFIPAddress]
  parseSwitch :=
      [(T.Cause, .Cause), (T.OffendingIE, .OffendingIE),
       (T.UpdateBARWithinSessionReportResponse, .UpdateBAR), (T.PFCPSRRspFlags, .PFCPSRRspFlags),
       (T.FSEID, .CPFSEID), (T.FTEID, .N4UFTEID),
       (T.AlternativeSMFIPAddress, .AlternativeSMFIPAddress)]
  ctor := .switch
      [(T.Cause, .Cause), (T.OffendingIE, .OffendingIE),
       (T.UpdateBARWithinSessionReportResponse, .UpdateBAR), (T.PFCPSRRspFlags, .PFCPSRRspFlags),
       (T.FSEID, .CPFSEID), (T.FTEID, .N4UFTEID),
       (T.AlternativeSMFIPAddress, .AlternativeSMFIPAddress)]
  setLen := none
  session := true
  typeName := "Session Report Response"
  isRequest := false
  msgType := 57

/-- Generic, /repo/message/generic.go:14-150: no fields, own SetLength (123-129), IsRequest false
(148-150). `typeName` and `msgType` are not used for it: the name is computed from the header
(132-134) and the constructors take the type as a parameter. -/
def tabGeneric : KindTable where
  fields := []
  lenOrder := []
  marshalOrder := []
  parseSwitch := []
  ctor := .args []
  setLen := some []
  session := true
  typeName := "Unknown"
  isRequest := false
  msgType := 0

/-- The table of each kind. -/
def Kind.tab : Kind → KindTable
  | .heartbeatRequest => tabHeartbeatRequest
  | .heartbeatResponse => tabHeartbeatResponse
  | .pfdManagementRequest => tabPFDManagementRequest
  | .pfdManagementResponse => tabPFDManagementResponse
  | .associationSetupRequest => tabAssociationSetupRequest
  | .associationSetupResponse => tabAssociationSetupResponse
  | .associationUpdateRequest => tabAssociationUpdateRequest
  | .associationUpdateResponse => tabAssociationUpdateResponse
  | .associationReleaseRequest => tabAssociationReleaseRequest
  | .associationReleaseResponse => tabAssociationReleaseResponse
  | .versionNotSupportedResponse => tabVersionNotSupportedResponse
  | .nodeReportRequest => tabNodeReportRequest
  | .nodeReportResponse => tabNodeReportResponse
  | .sessionSetDeletionRequest => tabSessionSetDeletionRequest
  | .sessionSetDeletionResponse => tabSessionSetDeletionResponse
  | .sessionEstablishmentRequest => tabSessionEstablishmentRequest
  | .sessionEstablishmentResponse => tabSessionEstablishmentResponse
  | .sessionModificationRequest => tabSessionModificationRequest
  | .sessionModificationResponse => tabSessionModificationResponse
  | .sessionDeletionRequest => tabSessionDeletionRequest
  | .sessionDeletionResponse => tabSessionDeletionResponse
  | .sessionReportRequest => tabSessionReportRequest
  | .sessionReportResponse => tabSessionReportResponse
  | .generic => tabGeneric

/-- The switch of `message.Parse`, /repo/message/message.go:66-116 (constants 14-42). -/
def kindOf : UInt8 → Kind
  | 1 => .heartbeatRequest
  | 2 => .heartbeatResponse
  | 3 => .pfdManagementRequest
  | 4 => .pfdManagementResponse
  | 5 => .associationSetupRequest
  | 6 => .associationSetupResponse
  | 7 => .associationUpdateRequest
  | 8 => .associationUpdateResponse
  | 9 => .associationReleaseRequest
  | 10 => .associationReleaseResponse
  | 11 => .versionNotSupportedResponse
  | 12 => .nodeReportRequest
  | 13 => .nodeReportResponse
  | 14 => .sessionSetDeletionRequest
  | 15 => .sessionSetDeletionResponse
  | 50 => .sessionEstablishmentRequest
  | 51 => .sessionEstablishmentResponse
  | 52 => .sessionModificationRequest
  | 53 => .sessionModificationResponse
  | 54 => .sessionDeletionRequest
  | 55 => .sessionDeletionResponse
  | 56 => .sessionReportRequest
  | 57 => .sessionReportResponse
  | _ => .generic

end Pfcp
