/-
The table of all functions of /repo/ie that report a flag of an element (`Has...`, `Is...` with a boolean result), transcribed
from the source: 157 functions. `IsGrouped` and `IsVendorSpecific` are in `Verif/IE/Model.lean`.
-/
import Verif.Acc.Table

namespace Pfcp

/-- A test of one octet; bits are counted from 0. -/
inductive Test where
  /-- `has1stBit(o)` is `bit 0`, and so on -/
  | bit (n : Nat)
  /-- `has1stBit(o) || has3rdBit(o)` and so on -/
  | any (ns : List Nat)
  /-- `hasNBit(o) && !hasMBit(o)` -/
  | bitNot (n m : Nat)
  /-- `(o>>7)&0x01 != 1` -/
  | notBit (n : Nat)
  deriving DecidableEq, Repr

/-- Where the octet comes from. -/
inductive FlagSrc where
  /-- `if len(i.Payload) < min { return false }`, then the octet `i.Payload[k]` -/
  | payload (min k : Nat) (t : Test)
  /-- `v, err := i.A()`, false on an error, then the octet `v` -/
  | u8 (a : Acc) (t : Test)
  /-- `v, err := i.A()`, false on an error or if `len(v) < min`, then the octet `v[k]` -/
  | bytes (a : Acc) (min k : Nat) (t : Test)
  /-- `if len(i.Payload) < min { return false }`, `v, err := i.OuterHeaderCreation()`, false on an error, then the high or low
  octet of the description (/repo/ie/outer-header-creation.go:501-568) -/
  | outer (min : Nat) (high : Bool) (t : Test)
  /-- `v, err := i.FSEID()`, false on an error, then `v.Flags` (/repo/ie/f-seid.go:67,77) -/
  | fseid (t : Test)
  /-- `v, err := i.FTEID()`, false on an error, then `v.Flags` (/repo/ie/f-teid.go:162,172) -/
  | fteid (t : Test)
  deriving DecidableEq, Repr

/-- Returns false if the payload has fewer than `pre` bytes; otherwise the first rule for the type of the element (`none`: all
types) decides, and without a rule the answer is false. -/
structure FlagTable where
  pre : Nat
  rules : List (Option (List IEType) × FlagSrc)

/-- The functions by their Go names. -/
inductive Flag where
  | HasADPDP | HasAFT | HasARDR | HasARP | HasASSONI | HasASSOSI
  | HasAURI | HasBDPN | HasBEF | HasBIDE | HasBII | HasBUCP
  | HasBUFF | HasBUNDL | HasCHV4 | HasCHV6 | HasCTag | HasDCARONI
  | HasDDND | HasDDPN | HasDFRT | HasDI | HasDL | HasDLBD
  | HasDLBY | HasDLDR | HasDLPA | HasDLPR | HasDPDRA | HasDROBU
  | HasDROP | HasDROTH | HasDUPL | HasDURAT | HasEDRT | HasEMPU
  | HasEMRRE | HasENVCL | HasEPFAR | HasERIR | HasETHI | HasEVENT
  | HasEVEQU | HasEVETH | HasEVETT | HasFORW | HasFRRT | HasFSSM
  | HasFTUP | HasGCOM | HasHEEU | HasIMMER | HasINAM | HasINS
  | HasIP6PL | HasIPMA | HasIPMD | HasIPMJL | HasIPv4 | HasIPv6
  | HasIPv6D | HasIRE | HasISTM | HasLIUSA | HasLLI | HasLOAD
  | HasMAC | HasMACAR | HasMAI | HasMBQE | HasMBSU | HasMNOP
  | HasMODE | HasMONIT | HasMPAS | HasMTE | HasN3 | HasN9
  | HasNI | HasNOCP | HasNORD | HasOVRL | HasPARPS | HasPDIU
  | HasPER | HasPERIO | HasPFDE | HasPFDM | HasPMFI | HasPPI
  | HasPRIN6I | HasPRINT19I | HasPRIUEAI | HasPSDBU | HasPSREI | HasPSUCC
  | HasPortNumber | HasQAURR | HasQFI | HasQUHTI | HasQUOAC | HasQUVTI
  | HasRADI | HasRCSR | HasRDS | HasRDSI | HasREEMR | HasRESTI
  | HasRP | HasRPGUR | HasRQI | HasRRCA | HasRRCR | HasRRTO
  | HasRTTL | HasSARR | HasSCI | HasSD | HasSESRL | HasSNDEM
  | HasSSET | HasSTART | HasSTOPT | HasSTag | HasTCI | HasTEBUR
  | HasTEID | HasTERMR | HasTHR | HasTIMQU | HasTIMTH | HasTRACE
  | HasTREU | HasTRST | HasTTC | HasUAE | HasUBE | HasUDBC
  | HasUEIP | HasUIAUR | HasUL | HasULPR | HasUPFR | HasUPINT
  | HasUPIR | HasURSS | HasUSAR | HasUUPSI | HasVOLQU | HasVOLTH
  | HasVOLUM | HasVTIME | IsAllocatedByCPFunction | IsAllocatedByUPFunction | IsLLSSMCTEID | IsN19
  | IsN6
  deriving DecidableEq, Repr

/-- All of them. -/
def Flag.all : List Flag := [
  .HasADPDP, .HasAFT, .HasARDR, .HasARP, .HasASSONI, .HasASSOSI,
  .HasAURI, .HasBDPN, .HasBEF, .HasBIDE, .HasBII, .HasBUCP,
  .HasBUFF, .HasBUNDL, .HasCHV4, .HasCHV6, .HasCTag, .HasDCARONI,
  .HasDDND, .HasDDPN, .HasDFRT, .HasDI, .HasDL, .HasDLBD,
  .HasDLBY, .HasDLDR, .HasDLPA, .HasDLPR, .HasDPDRA, .HasDROBU,
  .HasDROP, .HasDROTH, .HasDUPL, .HasDURAT, .HasEDRT, .HasEMPU,
  .HasEMRRE, .HasENVCL, .HasEPFAR, .HasERIR, .HasETHI, .HasEVENT,
  .HasEVEQU, .HasEVETH, .HasEVETT, .HasFORW, .HasFRRT, .HasFSSM,
  .HasFTUP, .HasGCOM, .HasHEEU, .HasIMMER, .HasINAM, .HasINS,
  .HasIP6PL, .HasIPMA, .HasIPMD, .HasIPMJL, .HasIPv4, .HasIPv6,
  .HasIPv6D, .HasIRE, .HasISTM, .HasLIUSA, .HasLLI, .HasLOAD,
  .HasMAC, .HasMACAR, .HasMAI, .HasMBQE, .HasMBSU, .HasMNOP,
  .HasMODE, .HasMONIT, .HasMPAS, .HasMTE, .HasN3, .HasN9,
  .HasNI, .HasNOCP, .HasNORD, .HasOVRL, .HasPARPS, .HasPDIU,
  .HasPER, .HasPERIO, .HasPFDE, .HasPFDM, .HasPMFI, .HasPPI,
  .HasPRIN6I, .HasPRINT19I, .HasPRIUEAI, .HasPSDBU, .HasPSREI, .HasPSUCC,
  .HasPortNumber, .HasQAURR, .HasQFI, .HasQUHTI, .HasQUOAC, .HasQUVTI,
  .HasRADI, .HasRCSR, .HasRDS, .HasRDSI, .HasREEMR, .HasRESTI,
  .HasRP, .HasRPGUR, .HasRQI, .HasRRCA, .HasRRCR, .HasRRTO,
  .HasRTTL, .HasSARR, .HasSCI, .HasSD, .HasSESRL, .HasSNDEM,
  .HasSSET, .HasSTART, .HasSTOPT, .HasSTag, .HasTCI, .HasTEBUR,
  .HasTEID, .HasTERMR, .HasTHR, .HasTIMQU, .HasTIMTH, .HasTRACE,
  .HasTREU, .HasTRST, .HasTTC, .HasUAE, .HasUBE, .HasUDBC,
  .HasUEIP, .HasUIAUR, .HasUL, .HasULPR, .HasUPFR, .HasUPINT,
  .HasUPIR, .HasURSS, .HasUSAR, .HasUUPSI, .HasVOLQU, .HasVOLTH,
  .HasVOLUM, .HasVTIME, .IsAllocatedByCPFunction, .IsAllocatedByUPFunction, .IsLLSSMCTEID, .IsN19,
  .IsN6]

/-- The table. -/
def Flag.table : Flag → FlagTable
  /- /repo/ie/up-function-features.go:251-260. -/
  | .HasADPDP => ⟨0, [(some [T.UPFunctionFeatures], .payload 3 2 (.bit 1))]⟩
  /- /repo/ie/usage-information.go:56-63. -/
  | .HasAFT => ⟨0, [(none, .u8 .UsageInformation (.bit 1))]⟩
  /- /repo/ie/cp-function-features.go:50-59. -/
  | .HasARDR => ⟨0, [(some [T.CPFunctionFeatures], .payload 1 0 (.bit 6))]⟩
  /- /repo/ie/proxying.go:55-62. -/
  | .HasARP => ⟨0, [(none, .u8 .Proxying (.bit 0))]⟩
  /- /repo/ie/user-plane-ip-resource-information.go:47-56. -/
  | .HasASSONI => ⟨0, [(some [T.UserPlaneIPResourceInformation], .payload 1 0 (.bit 5))]⟩
  /- /repo/ie/user-plane-ip-resource-information.go:59-68. -/
  | .HasASSOSI => ⟨0, [(some [T.UserPlaneIPResourceInformation], .payload 1 0 (.bit 6))]⟩
  /- /repo/ie/additional-usage-reports-information.go:34-43. -/
  | .HasAURI => ⟨0, [(some [T.AdditionalUsageReportsInformation], .payload 2 0 (.bit 7))]⟩
  /- /repo/ie/apply-action.go:204-213. -/
  | .HasBDPN => ⟨0, [(none, .bytes .ApplyAction 2 1 (.bit 1))]⟩
  /- /repo/ie/usage-information.go:66-73. -/
  | .HasBEF => ⟨0, [(none, .u8 .UsageInformation (.bit 0))]⟩
  /- /repo/ie/ethernet-filter-properties.go:45-52. -/
  | .HasBIDE => ⟨0, [(none, .u8 .EthernetFilterProperties (.bit 0))]⟩
  /- /repo/ie/create-bridge-info-for-tsc.go:23-30. -/
  | .HasBII => ⟨0, [(none, .u8 .CreateBridgeInfoForTSC (.bit 0))]⟩
  /- /repo/ie/up-function-features.go:39-48. -/
  | .HasBUCP => ⟨0, [(some [T.UPFunctionFeatures], .payload 1 0 (.bit 0))]⟩
  /- /repo/ie/apply-action.go:122-139. -/
  | .HasBUFF => ⟨0, [
    (some [T.CreateFAR, T.UpdateFAR, T.ApplyAction], .bytes .ApplyAction 0 0 (.bit 2)),
    (some [T.DownlinkDataReport, T.DataStatus], .u8 .DataStatus (.bit 1))]⟩
  /- /repo/ie/up-function-features.go:327-344. -/
  | .HasBUNDL => ⟨0, [
    (some [T.UPFunctionFeatures], .payload 3 2 (.bit 6)),
    (some [T.CPFunctionFeatures], .payload 1 0 (.bit 4))]⟩
  /- /repo/ie/ue-ip-address.go:118-127. -/
  | .HasCHV4 => ⟨0, [(some [T.UEIPAddress], .payload 1 0 (.bit 4))]⟩
  /- /repo/ie/ue-ip-address.go:131-140. -/
  | .HasCHV6 => ⟨0, [(some [T.UEIPAddress], .payload 1 0 (.bit 5))]⟩
  /- /repo/ie/outer-header-creation.go:222-235. -/
  | .HasCTag => ⟨0, [(some [T.OuterHeaderCreation], .outer 1 true (.bit 6))]⟩
  /- /repo/ie/packet-replication-and-detection-carry-on-information.go:64-71. -/
  | .HasDCARONI => ⟨0, [(none, .u8 .PacketReplicationAndDetectionCarryOnInformation (.bit 3))]⟩
  /- /repo/ie/up-function-features.go:51-60. -/
  | .HasDDND => ⟨0, [(some [T.UPFunctionFeatures], .payload 1 0 (.bit 1))]⟩
  /- /repo/ie/apply-action.go:217-226. -/
  | .HasDDPN => ⟨0, [(none, .bytes .ApplyAction 2 1 (.bit 2))]⟩
  /- /repo/ie/apply-action.go:181-187. -/
  | .HasDFRT => ⟨0, [(none, .bytes .ApplyAction 0 0 (.bit 7))]⟩
  /- /repo/ie/remote-gtp-u-peer.go:96-105. -/
  | .HasDI => ⟨0, [(some [T.RemoteGTPUPeer], .payload 1 0 (.bit 2))]⟩
  /- /repo/ie/requested-qos-monitoring.go:55-62. -/
  | .HasDL => ⟨0, [(none, .u8 .RequestedQoSMonitoring (.bit 0))]⟩
  /- /repo/ie/up-function-features.go:63-72. -/
  | .HasDLBD => ⟨0, [(some [T.UPFunctionFeatures], .payload 1 0 (.bit 2))]⟩
  /- /repo/ie/dropped-dl-traffic-threshold.go:76-83. -/
  | .HasDLBY => ⟨0, [(none, .u8 .DroppedDLTrafficThreshold (.bit 1))]⟩
  /- /repo/ie/report-type.go:52-59. -/
  | .HasDLDR => ⟨0, [(none, .u8 .ReportType (.bit 0))]⟩
  /- /repo/ie/dropped-dl-traffic-threshold.go:86-93. -/
  | .HasDLPA => ⟨0, [(none, .u8 .DroppedDLTrafficThreshold (.bit 0))]⟩
  /- /repo/ie/packet-rate.go:70-79. -/
  | .HasDLPR => ⟨0, [(some [T.PacketRate], .payload 1 0 (.bit 1))]⟩
  /- /repo/ie/up-function-features.go:239-248. -/
  | .HasDPDRA => ⟨0, [(some [T.UPFunctionFeatures], .payload 3 2 (.bit 0))]⟩
  /- /repo/ie/pfcpsmreq-flags.go:45-68. -/
  | .HasDROBU => ⟨1, [
    (some [T.PFCPSMReqFlags], .u8 .PFCPSMReqFlags (.bit 0)),
    (some [T.PFCPSRRspFlags], .u8 .PFCPSRRspFlags (.bit 0))]⟩
  /- /repo/ie/apply-action.go:93-110. -/
  | .HasDROP => ⟨0, [
    (some [T.CreateFAR, T.UpdateFAR, T.ApplyAction], .bytes .ApplyAction 0 0 (.bit 0)),
    (some [T.DownlinkDataReport, T.DataStatus], .u8 .DataStatus (.bit 0))]⟩
  /- /repo/ie/reporting-triggers.go:76-96. -/
  | .HasDROTH => ⟨0, [
    (some [T.CreateURR, T.UpdateURR, T.ReportingTriggers], .bytes .ReportingTriggers 0 0 (.bit 6)),
    (some [T.UsageReportWithinSessionModificationResponse, T.UsageReportWithinSessionDeletionResponse,
      T.UsageReportWithinSessionReportRequest, T.UsageReportTrigger], .bytes .UsageReportTrigger 0 0 (.bit 6))]⟩
  /- /repo/ie/apply-action.go:151-157. -/
  | .HasDUPL => ⟨0, [(none, .bytes .ApplyAction 0 0 (.bit 4))]⟩
  /- /repo/ie/measurement-method.go:76-83. -/
  | .HasDURAT => ⟨0, [(none, .u8 .MeasurementMethod (.bit 0))]⟩
  /- /repo/ie/apply-action.go:191-200. -/
  | .HasEDRT => ⟨0, [(none, .bytes .ApplyAction 2 1 (.bit 0))]⟩
  /- /repo/ie/up-function-features.go:135-144. -/
  | .HasEMPU => ⟨0, [(some [T.UPFunctionFeatures], .payload 2 1 (.bit 0))]⟩
  /- /repo/ie/usage-report-trigger.go:95-114. -/
  | .HasEMRRE => ⟨0, [
    (some [T.UsageReportWithinSessionModificationResponse, T.UsageReportWithinSessionDeletionResponse,
      T.UsageReportWithinSessionReportRequest, T.UsageReportTrigger], .bytes .UsageReportTrigger 3 2 (.bit 4))]⟩
  /- /repo/ie/reporting-triggers.go:374-394. -/
  | .HasENVCL => ⟨0, [
    (some [T.CreateURR, T.UpdateURR, T.ReportingTriggers], .bytes .ReportingTriggers 0 1 (.bit 2)),
    (some [T.UsageReportWithinSessionModificationResponse, T.UsageReportWithinSessionDeletionResponse,
      T.UsageReportWithinSessionReportRequest, T.UsageReportTrigger], .bytes .UsageReportTrigger 0 1 (.bit 5))]⟩
  /- /repo/ie/up-function-features.go:219-236. -/
  | .HasEPFAR => ⟨0, [
    (some [T.UPFunctionFeatures], .payload 2 1 (.bit 7)),
    (some [T.CPFunctionFeatures], .payload 1 0 (.bit 2))]⟩
  /- /repo/ie/report-type.go:32-39. -/
  | .HasERIR => ⟨0, [(none, .u8 .ReportType (.bit 2))]⟩
  /- /repo/ie/ethernet-pdu-session-information.go:56-63. -/
  | .HasETHI => ⟨0, [(none, .u8 .EthernetPDUSessionInformation (.bit 0))]⟩
  /- /repo/ie/measurement-method.go:56-63. -/
  | .HasEVENT => ⟨0, [(none, .u8 .MeasurementMethod (.bit 2))]⟩
  /- /repo/ie/reporting-triggers.go:300-325. -/
  | .HasEVEQU => ⟨0, [
    (some [T.CreateURR, T.UpdateURR, T.ReportingTriggers], .bytes .ReportingTriggers 0 1 (.bit 5)),
    (some [T.UsageReportWithinSessionModificationResponse, T.UsageReportWithinSessionDeletionResponse,
      T.UsageReportWithinSessionReportRequest, T.UsageReportTrigger], .bytes .UsageReportTrigger 3 2 (.bit 0))]⟩
  /- /repo/ie/reporting-triggers.go:328-348. -/
  | .HasEVETH => ⟨0, [
    (some [T.CreateURR, T.UpdateURR, T.ReportingTriggers], .bytes .ReportingTriggers 0 1 (.bit 4)),
    (some [T.UsageReportWithinSessionModificationResponse, T.UsageReportWithinSessionDeletionResponse,
      T.UsageReportWithinSessionReportRequest, T.UsageReportTrigger], .bytes .UsageReportTrigger 0 1 (.bit 7))]⟩
  /- /repo/ie/reporting-frequency.go:45-52. -/
  | .HasEVETT => ⟨0, [(none, .u8 .ReportingFrequency (.bit 0))]⟩
  /- /repo/ie/apply-action.go:113-119. -/
  | .HasFORW => ⟨0, [(none, .bytes .ApplyAction 0 0 (.bit 1))]⟩
  /- /repo/ie/up-function-features.go:195-204. -/
  | .HasFRRT => ⟨0, [(some [T.UPFunctionFeatures], .payload 2 1 (.bit 5))]⟩
  /- /repo/ie/apply-action.go:230-239. -/
  | .HasFSSM => ⟨0, [(none, .bytes .ApplyAction 2 1 (.bit 3))]⟩
  /- /repo/ie/up-function-features.go:87-96. -/
  | .HasFTUP => ⟨0, [(some [T.UPFunctionFeatures], .payload 1 0 (.bit 4))]⟩
  /- /repo/ie/up-function-features.go:347-356. -/
  | .HasGCOM => ⟨0, [(some [T.UPFunctionFeatures], .payload 3 2 (.bit 7))]⟩
  /- /repo/ie/up-function-features.go:111-120. -/
  | .HasHEEU => ⟨0, [(some [T.UPFunctionFeatures], .payload 1 0 (.bit 6))]⟩
  /- /repo/ie/usage-report-trigger.go:44-58. -/
  | .HasIMMER => ⟨0, [
    (some [T.UsageReportWithinSessionModificationResponse, T.UsageReportWithinSessionDeletionResponse,
      T.UsageReportWithinSessionReportRequest, T.UsageReportTrigger], .bytes .UsageReportTrigger 0 0 (.bit 7))]⟩
  /- /repo/ie/measurement-information.go:69-78. -/
  | .HasINAM => ⟨0, [(some [T.MeasurementInformation], .payload 1 0 (.bit 1))]⟩
  /- /repo/ie/proxying.go:45-52. -/
  | .HasINS => ⟨0, [(none, .u8 .Proxying (.bit 1))]⟩
  /- /repo/ie/ue-ip-address.go:144-153. -/
  | .HasIP6PL => ⟨0, [(some [T.UEIPAddress], .payload 1 0 (.bit 6))]⟩
  /- /repo/ie/apply-action.go:161-167. -/
  | .HasIPMA => ⟨0, [(none, .bytes .ApplyAction 0 0 (.bit 5))]⟩
  /- /repo/ie/apply-action.go:171-177. -/
  | .HasIPMD => ⟨0, [(none, .bytes .ApplyAction 0 0 (.bit 6))]⟩
  /- /repo/ie/reporting-triggers.go:272-297. -/
  | .HasIPMJL => ⟨0, [
    (some [T.CreateURR, T.UpdateURR, T.ReportingTriggers], .bytes .ReportingTriggers 0 1 (.bit 6)),
    (some [T.UsageReportWithinSessionModificationResponse, T.UsageReportWithinSessionDeletionResponse,
      T.UsageReportWithinSessionReportRequest, T.UsageReportTrigger], .bytes .UsageReportTrigger 3 2 (.bit 2))]⟩
  /- /repo/ie/outer-header-creation.go:126-171. -/
  | .HasIPv4 => ⟨0, [
    (some [T.OuterHeaderCreation], .outer 1 true (.any [0, 2, 4])),
    (some [T.UEIPAddress], .payload 1 0 (.bitNot 1 4)),
    (some [T.UserPlaneIPResourceInformation], .payload 1 0 (.bit 0)),
    (some [T.FSEID], .fseid (.bit 1)),
    (some [T.FTEID], .fteid (.bit 0)),
    (some [T.IPVersion], .u8 .IPVersion (.bit 1))]⟩
  /- /repo/ie/outer-header-creation.go:174-219. -/
  | .HasIPv6 => ⟨0, [
    (some [T.OuterHeaderCreation], .outer 1 true (.any [1, 3, 5])),
    (some [T.UEIPAddress], .payload 1 0 (.bitNot 0 4)),
    (some [T.UserPlaneIPResourceInformation], .payload 1 0 (.bit 1)),
    (some [T.FSEID], .fseid (.bit 0)),
    (some [T.FTEID], .fteid (.bit 1)),
    (some [T.IPVersion], .u8 .IPVersion (.bit 0))]⟩
  /- /repo/ie/ue-ip-address.go:156-165. -/
  | .HasIPv6D => ⟨0, [(some [T.UEIPAddress], .payload 1 0 (.bit 3))]⟩
  /- /repo/ie/qos-report-trigger.go:46-53. -/
  | .HasIRE => ⟨0, [(none, .u8 .QoSReportTrigger (.bit 2))]⟩
  /- /repo/ie/measurement-information.go:45-54. -/
  | .HasISTM => ⟨0, [(some [T.MeasurementInformation], .payload 1 0 (.bit 3))]⟩
  /- /repo/ie/reporting-triggers.go:53-73. -/
  | .HasLIUSA => ⟨0, [
    (some [T.CreateURR, T.UpdateURR, T.ReportingTriggers], .bytes .ReportingTriggers 0 0 (.bit 7)),
    (some [T.UsageReportWithinSessionModificationResponse, T.UsageReportWithinSessionDeletionResponse,
      T.UsageReportWithinSessionReportRequest, T.UsageReportTrigger], .bytes .UsageReportTrigger 0 1 (.bit 2))]⟩
  /- /repo/ie/atsss-ll-control-information.go:34-45. -/
  | .HasLLI => ⟨0, [(some [T.ATSSSLLControlInformation, T.ATSSSLLInformation], .payload 1 0 (.bit 0))]⟩
  /- /repo/ie/cp-function-features.go:26-35. -/
  | .HasLOAD => ⟨0, [(some [T.CPFunctionFeatures], .payload 1 0 (.bit 0))]⟩
  /- /repo/ie/tsn-bridge-id.go:25-32. -/
  | .HasMAC => ⟨0, [(some [T.TSNBridgeID], .payload 0 0 (.bit 0))]⟩
  /- /repo/ie/reporting-triggers.go:351-371. -/
  | .HasMACAR => ⟨0, [
    (some [T.CreateURR, T.UpdateURR, T.ReportingTriggers], .bytes .ReportingTriggers 0 1 (.bit 3)),
    (some [T.UsageReportWithinSessionModificationResponse, T.UsageReportWithinSessionDeletionResponse,
      T.UsageReportWithinSessionReportRequest, T.UsageReportTrigger], .bytes .UsageReportTrigger 0 1 (.bit 6))]⟩
  /- /repo/ie/mptcp-applicable-indication.go:34-45. -/
  | .HasMAI => ⟨0, [(some [T.MPTCPApplicableIndication], .payload 1 0 (.bit 0))]⟩
  /- /repo/ie/measurement-information.go:81-90. -/
  | .HasMBQE => ⟨0, [(some [T.MeasurementInformation], .payload 1 0 (.bit 0))]⟩
  /- /repo/ie/apply-action.go:243-252. -/
  | .HasMBSU => ⟨0, [(none, .bytes .ApplyAction 2 1 (.bit 4))]⟩
  /- /repo/ie/up-function-features.go:295-312. -/
  | .HasMNOP => ⟨0, [
    (some [T.UPFunctionFeatures], .payload 3 2 (.bit 4)),
    (some [T.MeasurementInformation], .payload 1 0 (.bit 4))]⟩
  /- /repo/ie/qer-control-indications.go:56-63. -/
  | .HasMODE => ⟨0, [(none, .u8 .QERControlIndications (.bit 1))]⟩
  /- /repo/ie/usage-report-trigger.go:61-75. -/
  | .HasMONIT => ⟨0, [
    (some [T.UsageReportWithinSessionModificationResponse, T.UsageReportWithinSessionDeletionResponse,
      T.UsageReportWithinSessionReportRequest, T.UsageReportTrigger], .bytes .UsageReportTrigger 0 1 (.bit 4))]⟩
  /- /repo/ie/up-function-features.go:359-376. -/
  | .HasMPAS => ⟨0, [
    (some [T.UPFunctionFeatures], .payload 4 3 (.bit 0)),
    (some [T.CPFunctionFeatures], .payload 1 0 (.bit 5))]⟩
  /- /repo/ie/up-function-features.go:315-324. -/
  | .HasMTE => ⟨0, [(some [T.UPFunctionFeatures], .payload 3 2 (.bit 5))]⟩
  /- /repo/ie/gtp-u-path-interface-type.go:46-53. -/
  | .HasN3 => ⟨0, [(none, .u8 .GTPUPathInterfaceType (.bit 1))]⟩
  /- /repo/ie/gtp-u-path-interface-type.go:56-63. -/
  | .HasN9 => ⟨0, [(none, .u8 .GTPUPathInterfaceType (.bit 0))]⟩
  /- /repo/ie/remote-gtp-u-peer.go:84-93. -/
  | .HasNI => ⟨0, [(some [T.RemoteGTPUPeer], .payload 1 0 (.bit 3))]⟩
  /- /repo/ie/apply-action.go:142-148. -/
  | .HasNOCP => ⟨0, [(none, .bytes .ApplyAction 0 0 (.bit 3))]⟩
  /- /repo/ie/qer-control-indications.go:46-53. -/
  | .HasNORD => ⟨0, [(none, .u8 .QERControlIndications (.bit 2))]⟩
  /- /repo/ie/cp-function-features.go:38-47. -/
  | .HasOVRL => ⟨0, [(some [T.CPFunctionFeatures], .payload 1 0 (.bit 1))]⟩
  /- /repo/ie/pfcpaureq-flags.go:22-29. -/
  | .HasPARPS => ⟨0, [(none, .u8 .PFCPAUReqFlags (.bit 0))]⟩
  /- /repo/ie/up-function-features.go:147-156. -/
  | .HasPDIU => ⟨0, [(some [T.UPFunctionFeatures], .payload 2 1 (.bit 1))]⟩
  /- /repo/ie/qos-report-trigger.go:66-73. -/
  | .HasPER => ⟨0, [(none, .u8 .QoSReportTrigger (.bit 0))]⟩
  /- /repo/ie/reporting-triggers.go:214-241. -/
  | .HasPERIO => ⟨0, [
    (some [T.CreateURR, T.UpdateURR, T.ReportingTriggers], .bytes .ReportingTriggers 0 0 (.bit 0)),
    (some [T.UsageReportWithinSessionModificationResponse, T.UsageReportWithinSessionDeletionResponse,
      T.UsageReportWithinSessionReportRequest, T.UsageReportTrigger], .bytes .UsageReportTrigger 0 0 (.bit 0)),
    (some [T.QoSMonitoringPerQoSFlowControlInformation, T.ReportingFrequency], .u8 .ReportingFrequency (.bit 1))]⟩
  /- /repo/ie/up-function-features.go:207-216. -/
  | .HasPFDE => ⟨0, [(some [T.UPFunctionFeatures], .payload 2 1 (.bit 6))]⟩
  /- /repo/ie/up-function-features.go:99-108. -/
  | .HasPFDM => ⟨0, [(some [T.UPFunctionFeatures], .payload 1 0 (.bit 5))]⟩
  /- /repo/ie/pmf-control-information.go:34-41. -/
  | .HasPMFI => ⟨0, [(none, .u8 .PMFControlInformation (.bit 0))]⟩
  /- /repo/ie/downlink-data-service-information.go:48-57. -/
  | .HasPPI => ⟨0, [(some [T.DownlinkDataServiceInformation], .payload 1 0 (.bit 0))]⟩
  /- /repo/ie/packet-replication-and-detection-carry-on-information.go:54-61. -/
  | .HasPRIN6I => ⟨0, [(none, .u8 .PacketReplicationAndDetectionCarryOnInformation (.bit 2))]⟩
  /- /repo/ie/packet-replication-and-detection-carry-on-information.go:44-51. -/
  | .HasPRINT19I => ⟨0, [(none, .u8 .PacketReplicationAndDetectionCarryOnInformation (.bit 1))]⟩
  /- /repo/ie/packet-replication-and-detection-carry-on-information.go:34-41. -/
  | .HasPRIUEAI => ⟨0, [(none, .u8 .PacketReplicationAndDetectionCarryOnInformation (.bit 0))]⟩
  /- /repo/ie/pfcpsrreq-flags.go:22-29. -/
  | .HasPSDBU => ⟨0, [(none, .u8 .PFCPSRReqFlags (.bit 0))]⟩
  /- /repo/ie/pfcpasrsp-flags.go:22-29. -/
  | .HasPSREI => ⟨0, [(none, .u8 .PFCPASRspFlags (.bit 0))]⟩
  /- /repo/ie/cp-function-features.go:74-83. -/
  | .HasPSUCC => ⟨0, [(some [T.CPFunctionFeatures], .payload 2 1 (.bit 0))]⟩
  /- /repo/ie/outer-header-creation.go:110-123. -/
  | .HasPortNumber => ⟨0, [(some [T.OuterHeaderCreation], .outer 1 true (.any [2, 3]))]⟩
  /- /repo/ie/pfcpsmreq-flags.go:90-106. -/
  | .HasQAURR => ⟨1, [(some [T.PFCPSMReqFlags], .u8 .PFCPSMReqFlags (.bit 2))]⟩
  /- /repo/ie/downlink-data-service-information.go:60-69. -/
  | .HasQFI => ⟨0, [(some [T.DownlinkDataServiceInformation], .payload 1 0 (.bit 1))]⟩
  /- /repo/ie/reporting-triggers.go:145-165. -/
  | .HasQUHTI => ⟨0, [
    (some [T.CreateURR, T.UpdateURR, T.ReportingTriggers], .bytes .ReportingTriggers 0 0 (.bit 3)),
    (some [T.UsageReportWithinSessionModificationResponse, T.UsageReportWithinSessionDeletionResponse,
      T.UsageReportWithinSessionReportRequest, T.UsageReportTrigger], .bytes .UsageReportTrigger 0 0 (.bit 3))]⟩
  /- /repo/ie/up-function-features.go:171-180. -/
  | .HasQUOAC => ⟨0, [(some [T.UPFunctionFeatures], .payload 2 1 (.bit 3))]⟩
  /- /repo/ie/reporting-triggers.go:244-269. -/
  | .HasQUVTI => ⟨0, [
    (some [T.CreateURR, T.UpdateURR, T.ReportingTriggers], .bytes .ReportingTriggers 0 1 (.bit 7)),
    (some [T.UsageReportWithinSessionModificationResponse, T.UsageReportWithinSessionDeletionResponse,
      T.UsageReportWithinSessionReportRequest, T.UsageReportTrigger], .bytes .UsageReportTrigger 3 2 (.bit 3))]⟩
  /- /repo/ie/measurement-information.go:57-66. -/
  | .HasRADI => ⟨0, [(some [T.MeasurementInformation], .payload 1 0 (.bit 2))]⟩
  /- /repo/ie/qer-control-indications.go:66-73. -/
  | .HasRCSR => ⟨0, [(none, .u8 .QERControlIndications (.bit 0))]⟩
  /- /repo/ie/rds-configuration-information.go:34-45. -/
  | .HasRDS => ⟨0, [(some [T.RDSConfigurationInformation], .payload 1 0 (.bit 0))]⟩
  /- /repo/ie/mt-edt-control-information.go:34-41. -/
  | .HasRDSI => ⟨0, [(none, .u8 .MTEDTControlInformation (.bit 0))]⟩
  /- /repo/ie/reporting-triggers.go:476-492. -/
  | .HasREEMR => ⟨0, [(some [T.CreateURR, T.UpdateURR, T.ReportingTriggers], .bytes .ReportingTriggers 3 2 (.bit 0))]⟩
  /- /repo/ie/pfcpsereq-flags.go:22-29. -/
  | .HasRESTI => ⟨0, [(none, .u8 .PFCPSEReqFlags (.bit 0))]⟩
  /- /repo/ie/requested-qos-monitoring.go:35-42. -/
  | .HasRP => ⟨0, [(none, .u8 .RequestedQoSMonitoring (.bit 2))]⟩
  /- /repo/ie/cp-function-features.go:86-95. -/
  | .HasRPGUR => ⟨0, [(some [T.CPFunctionFeatures], .payload 2 1 (.bit 1))]⟩
  /- /repo/ie/rqi.go:45-52. -/
  | .HasRQI => ⟨0, [(none, .u8 .RQI (.bit 0))]⟩
  /- /repo/ie/requested-access-availability-information.go:35-42. -/
  | .HasRRCA => ⟨0, [(none, .u8 .RequestedAccessAvailabilityInformation (.bit 0))]⟩
  /- /repo/ie/requested-clock-drift-information.go:35-60. -/
  | .HasRRCR => ⟨1, [(some [T.RequestedClockDriftInformation], .payload 0 0 (.bit 1))]⟩
  /- /repo/ie/requested-clock-drift-information.go:63-88. -/
  | .HasRRTO => ⟨1, [(some [T.RequestedClockDriftInformation], .payload 0 0 (.bit 0))]⟩
  /- /repo/ie/up-function-features.go:379-388. -/
  | .HasRTTL => ⟨0, [(some [T.UPFunctionFeatures], .payload 4 3 (.bit 1))]⟩
  /- /repo/ie/pfcp-association-release-request.go:32-39. -/
  | .HasSARR => ⟨0, [(none, .u8 .PFCPAssociationReleaseRequest (.bit 0))]⟩
  /- /repo/ie/dl-flow-level-marking.go:73-82. -/
  | .HasSCI => ⟨0, [(some [T.DLFlowLevelMarking], .payload 1 0 (.bit 0))]⟩
  /- /repo/ie/ue-ip-address.go:168-177. -/
  | .HasSD => ⟨0, [(some [T.UEIPAddress], .payload 1 0 (.bit 2))]⟩
  /- /repo/ie/reporting-frequency.go:35-42. -/
  | .HasSESRL => ⟨0, [(none, .u8 .ReportingFrequency (.bit 2))]⟩
  /- /repo/ie/pfcpsmreq-flags.go:71-87. -/
  | .HasSNDEM => ⟨1, [(some [T.PFCPSMReqFlags], .u8 .PFCPSMReqFlags (.bit 1))]⟩
  /- /repo/ie/up-function-features.go:275-292. -/
  | .HasSSET => ⟨0, [
    (some [T.UPFunctionFeatures], .payload 3 2 (.bit 3)),
    (some [T.CPFunctionFeatures], .payload 1 0 (.bit 3))]⟩
  /- /repo/ie/reporting-triggers.go:122-142. -/
  | .HasSTART => ⟨0, [
    (some [T.CreateURR, T.UpdateURR, T.ReportingTriggers], .bytes .ReportingTriggers 0 0 (.bit 4)),
    (some [T.UsageReportWithinSessionModificationResponse, T.UsageReportWithinSessionDeletionResponse,
      T.UsageReportWithinSessionReportRequest, T.UsageReportTrigger], .bytes .UsageReportTrigger 0 0 (.bit 4))]⟩
  /- /repo/ie/reporting-triggers.go:99-119. -/
  | .HasSTOPT => ⟨0, [
    (some [T.CreateURR, T.UpdateURR, T.ReportingTriggers], .bytes .ReportingTriggers 0 0 (.bit 5)),
    (some [T.UsageReportWithinSessionModificationResponse, T.UsageReportWithinSessionDeletionResponse,
      T.UsageReportWithinSessionReportRequest, T.UsageReportTrigger], .bytes .UsageReportTrigger 0 0 (.bit 5))]⟩
  /- /repo/ie/outer-header-creation.go:238-251. -/
  | .HasSTag => ⟨0, [(some [T.OuterHeaderCreation], .outer 1 true (.bit 7))]⟩
  /- /repo/ie/mptcp-control-information.go:34-41. -/
  | .HasTCI => ⟨0, [(none, .u8 .MPTCPControlInformation (.bit 0))]⟩
  /- /repo/ie/usage-report-trigger.go:117-136. -/
  | .HasTEBUR => ⟨0, [
    (some [T.UsageReportWithinSessionModificationResponse, T.UsageReportWithinSessionDeletionResponse,
      T.UsageReportWithinSessionReportRequest, T.UsageReportTrigger], .bytes .UsageReportTrigger 3 2 (.bit 1))]⟩
  /- /repo/ie/outer-header-creation.go:94-107. -/
  | .HasTEID => ⟨0, [(some [T.OuterHeaderCreation], .outer 1 true (.any [0, 1]))]⟩
  /- /repo/ie/usage-report-trigger.go:78-92. -/
  | .HasTERMR => ⟨0, [
    (some [T.UsageReportWithinSessionModificationResponse, T.UsageReportWithinSessionDeletionResponse,
      T.UsageReportWithinSessionReportRequest, T.UsageReportTrigger], .bytes .UsageReportTrigger 0 1 (.bit 3))]⟩
  /- /repo/ie/qos-report-trigger.go:56-63. -/
  | .HasTHR => ⟨0, [(none, .u8 .QoSReportTrigger (.bit 1))]⟩
  /- /repo/ie/reporting-triggers.go:397-417. -/
  | .HasTIMQU => ⟨0, [
    (some [T.CreateURR, T.UpdateURR, T.ReportingTriggers], .bytes .ReportingTriggers 0 1 (.bit 1)),
    (some [T.UsageReportWithinSessionModificationResponse, T.UsageReportWithinSessionDeletionResponse,
      T.UsageReportWithinSessionReportRequest, T.UsageReportTrigger], .bytes .UsageReportTrigger 0 1 (.bit 1))]⟩
  /- /repo/ie/reporting-triggers.go:168-188. -/
  | .HasTIMTH => ⟨0, [
    (some [T.CreateURR, T.UpdateURR, T.ReportingTriggers], .bytes .ReportingTriggers 0 0 (.bit 2)),
    (some [T.UsageReportWithinSessionModificationResponse, T.UsageReportWithinSessionDeletionResponse,
      T.UsageReportWithinSessionReportRequest, T.UsageReportTrigger], .bytes .UsageReportTrigger 0 0 (.bit 2))]⟩
  /- /repo/ie/up-function-features.go:183-192. -/
  | .HasTRACE => ⟨0, [(some [T.UPFunctionFeatures], .payload 2 1 (.bit 4))]⟩
  /- /repo/ie/up-function-features.go:123-132. -/
  | .HasTREU => ⟨0, [(some [T.UPFunctionFeatures], .payload 1 0 (.bit 7))]⟩
  /- /repo/ie/up-function-features.go:75-84. -/
  | .HasTRST => ⟨0, [(some [T.UPFunctionFeatures], .payload 1 0 (.bit 3))]⟩
  /- /repo/ie/dl-flow-level-marking.go:61-70. -/
  | .HasTTC => ⟨0, [(some [T.DLFlowLevelMarking], .payload 1 0 (.bit 1))]⟩
  /- /repo/ie/usage-information.go:46-53. -/
  | .HasUAE => ⟨0, [(none, .u8 .UsageInformation (.bit 2))]⟩
  /- /repo/ie/usage-information.go:36-43. -/
  | .HasUBE => ⟨0, [(none, .u8 .UsageInformation (.bit 3))]⟩
  /- /repo/ie/up-function-features.go:159-168. -/
  | .HasUDBC => ⟨0, [(some [T.UPFunctionFeatures], .payload 2 1 (.bit 2))]⟩
  /- /repo/ie/up-function-features.go:263-272. -/
  | .HasUEIP => ⟨0, [(some [T.UPFunctionFeatures], .payload 3 2 (.bit 2))]⟩
  /- /repo/ie/cp-function-features.go:62-71. -/
  | .HasUIAUR => ⟨0, [(some [T.CPFunctionFeatures], .payload 1 0 (.bit 7))]⟩
  /- /repo/ie/requested-qos-monitoring.go:45-52. -/
  | .HasUL => ⟨0, [(none, .u8 .RequestedQoSMonitoring (.bit 1))]⟩
  /- /repo/ie/packet-rate.go:82-91. -/
  | .HasULPR => ⟨0, [(some [T.PacketRate], .payload 1 0 (.bit 0))]⟩
  /- /repo/ie/node-report-type.go:22-31. -/
  | .HasUPFR => ⟨0, [(some [T.NodeReportType], .payload 1 0 (.bit 0))]⟩
  /- /repo/ie/reporting-triggers.go:443-473. -/
  | .HasUPINT => ⟨0, [
    (some [T.CreateURR, T.UpdateURR, T.ReportingTriggers], .bytes .ReportingTriggers 3 2 (.bit 1)),
    (some [T.UsageReportWithinSessionModificationResponse, T.UsageReportWithinSessionDeletionResponse,
      T.UsageReportWithinSessionReportRequest, T.UsageReportTrigger], .bytes .UsageReportTrigger 3 2 (.bit 5))]⟩
  /- /repo/ie/report-type.go:22-29. -/
  | .HasUPIR => ⟨0, [(none, .u8 .ReportType (.bit 3))]⟩
  /- /repo/ie/pfcp-association-release-request.go:22-29. -/
  | .HasURSS => ⟨0, [(none, .u8 .PFCPAssociationReleaseRequest (.bit 1))]⟩
  /- /repo/ie/report-type.go:42-49. -/
  | .HasUSAR => ⟨0, [(none, .u8 .ReportType (.bit 1))]⟩
  /- /repo/ie/pfcpasreq-flags.go:22-29. -/
  | .HasUUPSI => ⟨0, [(none, .u8 .PFCPASReqFlags (.bit 0))]⟩
  /- /repo/ie/reporting-triggers.go:420-440. -/
  | .HasVOLQU => ⟨0, [
    (some [T.CreateURR, T.UpdateURR, T.ReportingTriggers], .bytes .ReportingTriggers 0 1 (.bit 0)),
    (some [T.UsageReportWithinSessionModificationResponse, T.UsageReportWithinSessionDeletionResponse,
      T.UsageReportWithinSessionReportRequest, T.UsageReportTrigger], .bytes .UsageReportTrigger 0 1 (.bit 0))]⟩
  /- /repo/ie/reporting-triggers.go:191-211. -/
  | .HasVOLTH => ⟨0, [
    (some [T.CreateURR, T.UpdateURR, T.ReportingTriggers], .bytes .ReportingTriggers 0 0 (.bit 1)),
    (some [T.UsageReportWithinSessionModificationResponse, T.UsageReportWithinSessionDeletionResponse,
      T.UsageReportWithinSessionReportRequest, T.UsageReportTrigger], .bytes .UsageReportTrigger 0 0 (.bit 1))]⟩
  /- /repo/ie/measurement-method.go:66-73. -/
  | .HasVOLUM => ⟨0, [(none, .u8 .MeasurementMethod (.bit 1))]⟩
  /- /repo/ie/up-function-features.go:391-400. -/
  | .HasVTIME => ⟨0, [(some [T.UPFunctionFeatures], .payload 4 3 (.bit 2))]⟩
  /- /repo/ie/urr-id.go:170-179. -/
  | .IsAllocatedByCPFunction => ⟨0, [(some [T.URRID], .payload 1 0 (.bit 7))]⟩
  /- /repo/ie/urr-id.go:182-191. -/
  | .IsAllocatedByUPFunction => ⟨0, [(some [T.URRID], .payload 1 0 (.notBit 7))]⟩
  /- /repo/ie/outer-header-creation.go:286-299. -/
  | .IsLLSSMCTEID => ⟨0, [(some [T.OuterHeaderCreation], .outer 2 false (.bit 2))]⟩
  /- /repo/ie/outer-header-creation.go:254-267. -/
  | .IsN19 => ⟨0, [(some [T.OuterHeaderCreation], .outer 2 false (.bit 0))]⟩
  /- /repo/ie/outer-header-creation.go:270-283. -/
  | .IsN6 => ⟨0, [(some [T.OuterHeaderCreation], .outer 2 false (.bit 1))]⟩

end Pfcp
