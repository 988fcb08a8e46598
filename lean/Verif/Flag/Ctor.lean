/-
The constructors that make an element from individual flags.
-/
import Verif.Flag.Table
import Verif.IE.Model

namespace Pfcp

/-- The constructors whose element is one octet of flags. -/
inductive FlagCtor where
  | NewGTPUPathInterfaceType | NewIPVersion | NewMeasurementMethod | NewPFCPAssociationReleaseRequest | NewProxying
  | NewQERControlIndications | NewQoSReportTrigger | NewReportType | NewReportingFrequency
  | NewRequestedClockDriftInformation | NewRequestedQoSMonitoring | NewUsageInformation
  deriving DecidableEq, Repr

/-- The element type, and for each parameter in order the number of bits by which it is shifted into the octet. -/
def FlagCtor.def : FlagCtor → IEType × List Nat
  /- /repo/ie/gtp-u-path-interface-type.go:8-10, (n3, n9) -/
  | .NewGTPUPathInterfaceType => (T.GTPUPathInterfaceType, [1, 0])
  /- /repo/ie/ip-version.go:8-17, (v4, v6) -/
  | .NewIPVersion => (T.IPVersion, [0, 1])
  /- /repo/ie/measurement-method.go:8-10, (event, volum, durat) -/
  | .NewMeasurementMethod => (T.MeasurementMethod, [2, 1, 0])
  /- /repo/ie/pfcp-association-release-request.go:8-10, (sarr, urss) -/
  | .NewPFCPAssociationReleaseRequest => (T.PFCPAssociationReleaseRequest, [0, 1])
  /- /repo/ie/proxying.go:8-10, (ins, arp) -/
  | .NewProxying => (T.Proxying, [1, 0])
  /- /repo/ie/qer-control-indications.go:8-10, (nord, mode, rcsr) -/
  | .NewQERControlIndications => (T.QERControlIndications, [2, 1, 0])
  /- /repo/ie/qos-report-trigger.go:8-10, (ire, thr, per) -/
  | .NewQoSReportTrigger => (T.QoSReportTrigger, [2, 1, 0])
  /- /repo/ie/report-type.go:8-10, (upir, erir, usar, dldr) -/
  | .NewReportType => (T.ReportType, [3, 2, 1, 0])
  /- /repo/ie/reporting-frequency.go:8-10, (sesrl, perio, evett) -/
  | .NewReportingFrequency => (T.ReportingFrequency, [2, 1, 0])
  /- /repo/ie/requested-clock-drift-information.go:8-10, (rrcr, rrto) -/
  | .NewRequestedClockDriftInformation => (T.RequestedClockDriftInformation, [1, 0])
  /- /repo/ie/requested-qos-monitoring.go:8-10, (rp, ul, dl) -/
  | .NewRequestedQoSMonitoring => (T.RequestedQoSMonitoring, [2, 1, 0])
  /- /repo/ie/usage-information.go:8-10, (bef, aft, uae, ube) -/
  | .NewUsageInformation => (T.UsageInformation, [0, 1, 2, 3])

/-- The octet: `uint8((a<<2)|(b<<1)|c)`. The arguments are `int` in most constructors; the truncation to 8 bits commutes with
the shifts and the disjunction, so they are taken truncated. -/
def flagOctet : List Nat → List UInt8 → UInt8
  | s :: ss, a :: as => (a <<< UInt8.ofNat s) ||| flagOctet ss as
  | _, _ => 0

/-- The element. -/
def FlagCtor.build (c : FlagCtor) (args : List UInt8) : IE := IE.new c.def.1 [flagOctet c.def.2 args]

/-- Specification, from the names alone: the function that reports a parameter is the one with its name. -/
def FlagCtor.params : FlagCtor → List Flag
  | .NewGTPUPathInterfaceType => [.HasN3, .HasN9]
  | .NewIPVersion => [.HasIPv4, .HasIPv6]
  | .NewMeasurementMethod => [.HasEVENT, .HasVOLUM, .HasDURAT]
  | .NewPFCPAssociationReleaseRequest => [.HasSARR, .HasURSS]
  | .NewProxying => [.HasINS, .HasARP]
  | .NewQERControlIndications => [.HasNORD, .HasMODE, .HasRCSR]
  | .NewQoSReportTrigger => [.HasIRE, .HasTHR, .HasPER]
  | .NewReportType => [.HasUPIR, .HasERIR, .HasUSAR, .HasDLDR]
  | .NewReportingFrequency => [.HasSESRL, .HasPERIO, .HasEVETT]
  | .NewRequestedClockDriftInformation => [.HasRRCR, .HasRRTO]
  | .NewRequestedQoSMonitoring => [.HasRP, .HasUL, .HasDL]
  | .NewUsageInformation => [.HasBEF, .HasAFT, .HasUAE, .HasUBE]

/-- `NewDownlinkDataServiceInformation`, /repo/ie/downlink-data-service-information.go:12-24. -/
def newDownlinkDataServiceInformation (hasPPI hasQFI : Bool) (ppi qfi : UInt8) : IE :=
  IE.new T.DownlinkDataServiceInformation
    ((((if hasPPI then 0x01 else 0) ||| (if hasQFI then 0x02 else 0)) : UInt8) ::
      ((if hasPPI then [ppi] else []) ++ (if hasQFI then [qfi] else [])))

/-- `NewDroppedDLTrafficThreshold`, /repo/ie/dropped-dl-traffic-threshold.go:14-39. -/
def newDroppedDLTrafficThreshold (dlpa dlby : Bool) (packets bytes : UInt64) : IE :=
  IE.new T.DroppedDLTrafficThreshold
    (if dlpa then
      if dlby then 0x03 :: (be64 packets ++ be64 bytes) else 0x01 :: be64 packets
    else if dlby then 0x02 :: be64 bytes else [0x00])

end Pfcp
