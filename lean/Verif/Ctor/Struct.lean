/-
The constructors of structured elements, such as NewFSEID and NewVolumeQuota: all 35 of them fill a `XxxFields` value
(`Xxx.new`, modelled in Verif/Fields), encode it with its `Marshal`, return nil when that fails, and otherwise wrap
the octets with `New`. Addresses given as strings are the result of `net.ParseIP`, `none` when it fails, as in
Verif/Fields.
-/
import Verif.Ctor.MultiLemmas
import Verif.Fields.Props1
import Verif.Fields.Props2
import Verif.Fields.Props3
import Verif.Fields.Props4
import Verif.Fields.Props5
import Verif.Fields.Props6
import Verif.Fields.Props7

namespace Pfcp
open Fields

/-- `b, err := fields.Marshal(); if err != nil { return nil }; return New(t, b)`, for example /repo/ie/f-seid.go:17-22.
`none` is nil. -/
def wrap (t : IEType) (r : Res Bytes) : Res (Option IE) :=
  match r with
  | .ok b => .ok (some (IE.new t b))
  | .err _ => .ok none
  | .panic => .panic

/-- /repo/ie/alternative-smf-ip-address.go:13-22. -/
def newAlternativeSMFIPAddress (v4 v6 : IP) : Res (Option IE) :=
  wrap T.AlternativeSMFIPAddress (IP46.codec.marshal (IP46.new v4 v6))
/-- /repo/ie/cp-pfcp-entity-ip-address.go:13-22. -/
def newCPPFCPEntityIPAddress (v4 v6 : IP) : Res (Option IE) :=
  wrap T.CPPFCPEntityIPAddress (IP46.codec.marshal (IP46.new v4 v6))
/-- /repo/ie/c-tag.go:13-22. -/
def newCTAG (flags pcp dei : UInt8) (cvid : UInt16) : Res (Option IE) :=
  wrap T.CTAG (Tag.codec.marshal (Tag.new flags pcp dei cvid))
/-- /repo/ie/s-tag.go:13-22. -/
def newSTAG (flags pcp dei : UInt8) (cvid : UInt16) : Res (Option IE) :=
  wrap T.STAG (Tag.codec.marshal (Tag.new flags pcp dei cvid))
/-- /repo/ie/dl-flow-level-marking.go:13-21. -/
def newDLFlowLevelMarking (flags : UInt8) (ttc sci : UInt16) : Res (Option IE) :=
  wrap T.DLFlowLevelMarking (DLFlowLevelMarking.codec.marshal (DLFlowLevelMarking.new flags ttc sci))
/-- /repo/ie/f-seid.go:14-23. -/
def newFSEID (seid : UInt64) (v4 v6 : IP) : Res (Option IE) :=
  wrap T.FSEID (FSEID.codec.marshal (FSEID.new seid v4 v6))
/-- /repo/ie/f-teid.go:15-24. -/
def newFTEID (flags : UInt8) (teid : UInt32) (v4 v6 : IP) (chid : UInt8) : Res (Option IE) :=
  wrap T.FTEID (FTEID.codec.marshal (FTEID.new flags teid v4 v6 chid))
/-- /repo/ie/header-enrichment.go:17-25. -/
def newHeaderEnrichment (typ : UInt8) (name value : Bytes) : Res (Option IE) :=
  wrap T.HeaderEnrichment (HeaderEnrichment.codec.marshal (HeaderEnrichment.new typ name value))
/-- /repo/ie/ip-multicast-address.go:13-22. -/
def newIPMulticastAddress (s4 s6 e4 e6 : IP) : Res (Option IE) :=
  wrap T.IPMulticastAddress (IPMulticastAddress.codec.marshal (IPMulticastAddress.new s4 s6 e4 e6))
/-- /repo/ie/mac-address-detected.go:13-22; the tags are given by their payloads, `none` is a nil element. -/
def newMACAddressesDetected (ctag stag : Option Bytes) (macs : List Bytes) : Res (Option IE) :=
  wrap T.MACAddressesDetected (MACAddresses.build ctag stag macs)
/-- /repo/ie/mac-address-removed.go:13-22. -/
def newMACAddressesRemoved (ctag stag : Option Bytes) (macs : List Bytes) : Res (Option IE) :=
  wrap T.MACAddressesRemoved (MACAddresses.build ctag stag macs)
/-- /repo/ie/mac-address.go:13-22. -/
def newMACAddress (src dst usrc udst : Option Bytes) : Res (Option IE) :=
  wrap T.MACAddress (MACAddress.codec.marshal (MACAddress.new src dst usrc udst))
/-- /repo/ie/mptcp-address-information.go:19-28. -/
def newMPTCPAddressInformation (ptype : UInt8) (port : UInt16) (v4 v6 : IP) : Res (Option IE) :=
  wrap T.MPTCPAddressInformation (MPTCPAddressInformation.codec.marshal (MPTCPAddressInformation.new ptype port v4 v6))
/-- /repo/ie/number-of-ue-ip-addresses.go:13-22. -/
def newNumberOfUEIPAddresses (flags : UInt8) (v4 v6 : UInt32) : Res (Option IE) :=
  wrap T.NumberOfUEIPAddresses (NumberOfUEIPAddresses.codec.marshal (NumberOfUEIPAddresses.new flags v4 v6))
/-- /repo/ie/outer-header-creation.go:14-22. -/
def newOuterHeaderCreation (desc : UInt16) (teid : UInt32) (v4 v6 : IP) (port : UInt16) (ctag stag : UInt32) :
    Res (Option IE) :=
  wrap T.OuterHeaderCreation (OuterHeaderCreation.codec.marshal (OuterHeaderCreation.new desc teid v4 v6 port ctag stag))
/-- /repo/ie/packet-delay-thresholds.go:13-22. -/
def newPacketDelayThresholds (flags : UInt8) (dl ul rp : UInt32) : Res (Option IE) :=
  wrap T.PacketDelayThresholds (Delays.codec.marshal (Delays.new flags dl ul rp))
/-- /repo/ie/qos-monitoring-measurement.go:13-22. -/
def newQoSMonitoringMeasurement (flags : UInt8) (dl ul rp : UInt32) : Res (Option IE) :=
  wrap T.QoSMonitoringMeasurement (Delays.codec.marshal (Delays.new flags dl ul rp))
/-- /repo/ie/packet-rate-status.go:14-23. -/
def newPacketRateStatus (flags : UInt8) (ul aul dl adl : UInt16) (vtime : Time) : Res (Option IE) :=
  wrap T.PacketRateStatus (PacketRateStatus.codec.marshal (PacketRateStatus.new flags ul aul dl adl vtime))
/-- /repo/ie/packet-rate.go:22-30. -/
def newPacketRate (flags ulUnit : UInt8) (ulRate : UInt16) (dlUnit : UInt8) (dlRate : UInt16) : Res (Option IE) :=
  wrap T.PacketRate (PacketRate.codec.marshal (PacketRate.new flags ulUnit ulRate dlUnit dlRate))
/-- /repo/ie/pfd-contents.go:13-21. -/
def newPFDContents (fd url dn cp dnp : Bytes) (afd aurl adnp : List Bytes) : Res (Option IE) :=
  wrap T.PFDContents (PFDContents.codec.marshal (PFDContents.new fd url dn cp dnp afd aurl adnp))
/-- /repo/ie/pmf-address-information.go:14-23. -/
def newPMFAddressInformation (v4 v6 : IP) (port1 port2 : UInt16) (mac1 mac2 : IP) : Res (Option IE) :=
  wrap T.PMFAddressInformation (PMFAddressInformation.codec.marshal (PMFAddressInformation.new v4 v6 port1 port2 mac1 mac2))
/-- /repo/ie/redirect-information.go:13-22. -/
def newRedirectInformation (typ : UInt8) (addrs : List Bytes) : Res (Option IE) :=
  wrap T.RedirectInformation (RedirectInformation.build typ addrs)
/-- /repo/ie/remote-gtp-u-peer.go:14-22. -/
def newRemoteGTPUPeer (flags : UInt8) (v4 v6 : IP) (di : UInt8) (ni : Bytes) : Res (Option IE) :=
  wrap T.RemoteGTPUPeer (RemoteGTPUPeer.codec.marshal (RemoteGTPUPeer.new flags v4 v6 di ni))
/-- /repo/ie/sdf-filter.go:13-21. -/
def newSDFFilter (fd ttc spi fl : Bytes) (fid : UInt32) : Res (Option IE) :=
  wrap T.SDFFilter (SDFFilter.codec.marshal (SDFFilter.new fd ttc spi fl fid))
/-- /repo/ie/source-ip-address.go:13-22. -/
def newSourceIPAddress (v4 v6 : IP) (mpl : UInt8) : Res (Option IE) :=
  wrap T.SourceIPAddress (SourceIPAddress.codec.marshal (SourceIPAddress.new v4 v6 mpl))
/-- /repo/ie/subsequent-volume-quota.go:13-22. -/
def newSubsequentVolumeQuota (flags : UInt8) (t u d : UInt64) : Res (Option IE) :=
  wrap T.SubsequentVolumeQuota (Volume.codec.marshal (Volume.new flags t u d))
/-- /repo/ie/subsequent-volume-threshold.go:13-22. -/
def newSubsequentVolumeThreshold (flags : UInt8) (t u d : UInt64) : Res (Option IE) :=
  wrap T.SubsequentVolumeThreshold (Volume.codec.marshal (Volume.new flags t u d))
/-- /repo/ie/volume-quota.go:13-22. -/
def newVolumeQuota (flags : UInt8) (t u d : UInt64) : Res (Option IE) :=
  wrap T.VolumeQuota (Volume.codec.marshal (Volume.new flags t u d))
/-- /repo/ie/volume-threshold.go:13-22. -/
def newVolumeThreshold (flags : UInt8) (t u d : UInt64) : Res (Option IE) :=
  wrap T.VolumeThreshold (Volume.codec.marshal (Volume.new flags t u d))
/-- /repo/ie/volume-measurement.go:13-22. -/
def newVolumeMeasurement (flags : UInt8) (t u d tp up dp : UInt64) : Res (Option IE) :=
  wrap T.VolumeMeasurement (VolumeMeasurement.codec.marshal (VolumeMeasurement.new flags t u d tp up dp))
/-- /repo/ie/trace-information.go:15-24. -/
def newTraceInformation (mcc mnc id events : Bytes) (depth : UInt8) (ifs : Bytes) (ip : IP) : Res (Option IE) :=
  wrap T.TraceInformation (TraceInformation.codec.marshal (TraceInformation.new mcc mnc id events depth ifs ip))
/-- /repo/ie/ue-ip-address.go:13-21. -/
def newUEIPAddress (flags : UInt8) (v4 v6 : IP) (v6d v6pl : UInt8) : Res (Option IE) :=
  wrap T.UEIPAddress (UEIPAddress.codec.marshal (UEIPAddress.new flags v4 v6 v6d v6pl))
/-- /repo/ie/ue-link-specific-ip-address.go:13-22. -/
def newUELinkSpecificIPAddress (v4 v6 nv4 nv6 : IP) : Res (Option IE) :=
  wrap T.UELinkSpecificIPAddress (UELinkSpecificIPAddress.codec.marshal (UELinkSpecificIPAddress.new v4 v6 nv4 nv6))
/-- /repo/ie/user-id.go:14-23. -/
def newUserID (flags : UInt8) (imsi imei msisdn nai : Bytes) : Res (Option IE) :=
  wrap T.UserID (UserID.build flags imsi imei msisdn nai)
/-- /repo/ie/user-plane-ip-resource-information.go:13-21. -/
def newUserPlaneIPResourceInformation (flags tRange : UInt8) (v4 v6 : IP) (ni : Bytes) (si : UInt8) : Res (Option IE) :=
  wrap T.UserPlaneIPResourceInformation
    (UserPlaneIPResourceInformation.codec.marshal (UserPlaneIPResourceInformation.new flags tRange v4 v6 ni si))

/-! ### What is claimed of a constructor -/

/-- The constructor call `mk` returns an element of type `t`, which is encoded, is decoded to itself whatever follows it,
may be part of a grouped element, and from which accessor `a` reads `v`. -/
def Carries (g : IEType → Bool) (mem : IE → Bytes) (mk : Res (Option IE)) (t : IEType) (a : Acc) (v : Val) : Prop :=
  ∀ rest : Bytes, ∃ i b, mk = .ok (some i) ∧ i.typ = t ∧ i.marshal g = .ok b ∧ parse g (b ++ rest) = .ok i ∧ i.WF g ∧
    a.call g mem i = .ok v

theorem carries {α : Type} {g : IEType → Bool} {mem : IE → Bytes} {t : IEType} {a : Acc} {r : Res Bytes} {w : Bytes}
    {v : α} (c : Codec α) (l : Leaf) (inj : α → Val) (hr : r = .ok w) (hw : w.length ≤ 65535) (hg : g t = false)
    (hp : ∀ sp, c.parse ⟨w, sp⟩ = .ok v) (ht : isVendor t = false ∧ a.table.pre = 0)
    (hl : a.table.cases.lookup t = some (.leaf l))
    (hrun : ∀ i sp, l.run g i sp = c.parse ⟨i.payload, sp⟩ >>= fun x => .ok (inj x)) :
    Carries g mem (wrap t r) t a (inj v) := by
  subst hr
  intro rest
  obtain ⟨b, h1, h2⟩ := new_wire g t w rest hg ht.1 hw
  refine ⟨IE.new t w, b, rfl, rfl, h1, h2,
    (C10_new_partial (g := g) t 0 w (by simpa [ht.1] using hw) hg).1 ht.1, ?_⟩
  rw [call_leaf g mem a (IE.new t w) l hl (by rw [ht.2]; exact Nat.zero_le _), hrun]
  show (c.parse ⟨w, _⟩ >>= _) = _
  rw [hp]
  rfl

/-- The octets of `Yields` are those of `Encodes`. -/
theorem yields_exact {α : Type} {c : Codec α} {v v' : α} {w : Bytes} (h : c.Yields v v') (he : c.Encodes v w) :
    ∀ sp, c.parse ⟨w, sp⟩ = .ok v' := by
  obtain ⟨w', h1, h2⟩ := h
  unfold Codec.Encodes at he
  rw [he] at h1
  cases h1
  intro sp
  have := h2 [] sp
  rwa [List.append_nil] at this

/-- `l ++ (if c then x else [])` adds at most the length of `x`. -/
theorem length_ite_le (c : Prop) [Decidable c] (x : Bytes) (n : Nat) (h : c → x.length ≤ n) :
    (if c then x else []).length ≤ n := by
  split
  · next hc => exact h hc
  · exact Nat.zero_le _

theorem wire4_le {ip : IP} (h : ip.Is4) : (wire4 ip).length ≤ 4 := by
  rw [wire4_length h]; split <;> omega
theorem wire16_le {ip : IP} (h : ip.Is16) : (wire16 ip).length ≤ 16 := by
  rw [wire16_length h]; split <;> omega

end Pfcp
