/-
Where 3GPP TS 29.244 puts the flags: for each element type, its octets, and for each octet the flags from bit 1 to bit 8
(`o` where the library has no function for the bit). Written from the specification, not from the code.
-/
import Verif.Flag.Table

namespace Pfcp

/-- A bit without a function. -/
private abbrev o : Option Flag := none

/-- The layout of the elements that consist of flags, or begin with octets of flags. -/
def flagLayout : List (IEType × List (List (Option Flag))) := [
  (T.AdditionalUsageReportsInformation, [[o, o, o, o, o, o, o, some .HasAURI]]),
  (T.ApplyAction, [
    [some .HasDROP, some .HasFORW, some .HasBUFF, some .HasNOCP,
      some .HasDUPL, some .HasIPMA, some .HasIPMD, some .HasDFRT],
    [some .HasEDRT, some .HasBDPN, some .HasDDPN, some .HasFSSM, some .HasMBSU]]),
  (T.DataStatus, [[some .HasDROP, some .HasBUFF]]),
  (T.ATSSSLLControlInformation, [[some .HasLLI]]),
  (T.ATSSSLLInformation, [[some .HasLLI]]),
  (T.CPFunctionFeatures, [
    [some .HasLOAD, some .HasOVRL, some .HasEPFAR, some .HasSSET,
      some .HasBUNDL, some .HasMPAS, some .HasARDR, some .HasUIAUR],
    [some .HasPSUCC, some .HasRPGUR]]),
  (T.CreateBridgeInfoForTSC, [[some .HasBII]]),
  (T.DLFlowLevelMarking, [[some .HasTTC, some .HasSCI]]),
  (T.DownlinkDataServiceInformation, [[some .HasPPI, some .HasQFI]]),
  (T.DroppedDLTrafficThreshold, [[some .HasDLPA, some .HasDLBY]]),
  (T.EthernetFilterProperties, [[some .HasBIDE]]),
  (T.EthernetPDUSessionInformation, [[some .HasETHI]]),
  (T.GTPUPathInterfaceType, [[some .HasN9, some .HasN3]]),
  (T.IPVersion, [[some .HasIPv4, some .HasIPv6]]),
  (T.MeasurementInformation, [[some .HasMBQE, some .HasINAM, some .HasRADI, some .HasISTM, some .HasMNOP]]),
  (T.MeasurementMethod, [[some .HasDURAT, some .HasVOLUM, some .HasEVENT]]),
  (T.MPTCPApplicableIndication, [[some .HasMAI]]),
  (T.MPTCPControlInformation, [[some .HasTCI]]),
  (T.MTEDTControlInformation, [[some .HasRDSI]]),
  (T.NodeReportType, [[some .HasUPFR]]),
  (T.PacketRate, [[some .HasULPR, some .HasDLPR]]),
  (T.PacketReplicationAndDetectionCarryOnInformation,
    [[some .HasPRIUEAI, some .HasPRINT19I, some .HasPRIN6I, some .HasDCARONI]]),
  (T.PFCPAssociationReleaseRequest, [[some .HasSARR, some .HasURSS]]),
  (T.PFCPASReqFlags, [[some .HasUUPSI]]),
  (T.PFCPASRspFlags, [[some .HasPSREI]]),
  (T.PFCPAUReqFlags, [[some .HasPARPS]]),
  (T.PFCPSEReqFlags, [[some .HasRESTI]]),
  (T.PFCPSMReqFlags, [[some .HasDROBU, some .HasSNDEM, some .HasQAURR]]),
  (T.PFCPSRReqFlags, [[some .HasPSDBU]]),
  (T.PFCPSRRspFlags, [[some .HasDROBU]]),
  (T.PMFControlInformation, [[some .HasPMFI]]),
  (T.Proxying, [[some .HasARP, some .HasINS]]),
  (T.QERControlIndications, [[some .HasRCSR, some .HasMODE, some .HasNORD]]),
  (T.QoSReportTrigger, [[some .HasPER, some .HasTHR, some .HasIRE]]),
  (T.RDSConfigurationInformation, [[some .HasRDS]]),
  (T.RemoteGTPUPeer, [[o, o, some .HasDI, some .HasNI]]),
  (T.ReportType, [[some .HasDLDR, some .HasUSAR, some .HasERIR, some .HasUPIR]]),
  (T.ReportingFrequency, [[some .HasEVETT, some .HasPERIO, some .HasSESRL]]),
  (T.ReportingTriggers, [
    [some .HasPERIO, some .HasVOLTH, some .HasTIMTH, some .HasQUHTI,
      some .HasSTART, some .HasSTOPT, some .HasDROTH, some .HasLIUSA],
    [some .HasVOLQU, some .HasTIMQU, some .HasENVCL, some .HasMACAR,
      some .HasEVETH, some .HasEVEQU, some .HasIPMJL, some .HasQUVTI],
    [some .HasREEMR, some .HasUPINT]]),
  (T.RequestedAccessAvailabilityInformation, [[some .HasRRCA]]),
  (T.RequestedClockDriftInformation, [[some .HasRRTO, some .HasRRCR]]),
  (T.RequestedQoSMonitoring, [[some .HasDL, some .HasUL, some .HasRP]]),
  (T.RQI, [[some .HasRQI]]),
  (T.TSNBridgeID, [[some .HasMAC]]),
  (T.UEIPAddress, [[o, o, some .HasSD, some .HasIPv6D, some .HasCHV4, some .HasCHV6, some .HasIP6PL]]),
  (T.UPFunctionFeatures, [
    [some .HasBUCP, some .HasDDND, some .HasDLBD, some .HasTRST,
      some .HasFTUP, some .HasPFDM, some .HasHEEU, some .HasTREU],
    [some .HasEMPU, some .HasPDIU, some .HasUDBC, some .HasQUOAC,
      some .HasTRACE, some .HasFRRT, some .HasPFDE, some .HasEPFAR],
    [some .HasDPDRA, some .HasADPDP, some .HasUEIP, some .HasSSET,
      some .HasMNOP, some .HasMTE, some .HasBUNDL, some .HasGCOM],
    [some .HasMPAS, some .HasRTTL, some .HasVTIME]]),
  (T.UsageInformation, [[some .HasBEF, some .HasAFT, some .HasUAE, some .HasUBE]]),
  (T.UsageReportTrigger, [
    [some .HasPERIO, some .HasVOLTH, some .HasTIMTH, some .HasQUHTI,
      some .HasSTART, some .HasSTOPT, some .HasDROTH, some .HasIMMER],
    [some .HasVOLQU, some .HasTIMQU, some .HasLIUSA, some .HasTERMR,
      some .HasMONIT, some .HasENVCL, some .HasMACAR, some .HasEVETH],
    [some .HasEVEQU, some .HasTEBUR, some .HasIPMJL, some .HasQUVTI, some .HasEMRRE, some .HasUPINT]]),
  (T.UserPlaneIPResourceInformation, [[some .HasIPv4, some .HasIPv6, o, o, o, some .HasASSONI, some .HasASSOSI]])]

/-- The flag in bit `n` (from 0) of octet `k` (from 0) of the payload. -/
def flagAt (t : IEType) (k n : Nat) : Option Flag :=
  match flagLayout.lookup t with
  | none => none
  | some octets =>
    match octets[k]? with
    | none => none
    | some bits => (bits[n]?).getD none

end Pfcp
