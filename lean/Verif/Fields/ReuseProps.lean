/-
C74: decoding into a structured value that is already in use.

`UnmarshalBinary` is a method on a pointer, and a program may keep one value and decode into it again and again. It relies
on the outcome being that of a decode into a new value: the same value, or the same error.
-/
import Verif.Fields.ReuseCopy

namespace Pfcp
namespace Fields

/-! ### What a used value holds afterwards

Every decoder assigns the fields that the flags announce and leaves the others. `parseP` is the decode into a new value. -/

/-- C74 the volume quotas and thresholds, exact. -/
theorem C74_Volume_exact (old : Volume) (b : Slice) :
    (old.into).run b = Volume.parseP.run b >>= fun v => .ok
      { flags := v.flags,
        total := if has1stBit v.flags then v.total else old.total,
        uplink := if has2ndBit v.flags then v.uplink else old.uplink,
        downlink := if has3rdBit v.flags then v.downlink else old.downlink } := by
  refine P.Over.run ?_ b
  unfold Volume.into Volume.parseP
  over

/-- C74 VolumeMeasurement, exact. -/
theorem C74_VolumeMeasurement_exact (old : VolumeMeasurement) (b : Slice) :
    (old.into).run b = VolumeMeasurement.parseP.run b >>= fun v => .ok
      { flags := v.flags,
        total := if has1stBit v.flags then v.total else old.total,
        uplink := if has2ndBit v.flags then v.uplink else old.uplink,
        downlink := if has3rdBit v.flags then v.downlink else old.downlink,
        totalPackets := if has4thBit v.flags then v.totalPackets else old.totalPackets,
        uplinkPackets := if has5thBit v.flags then v.uplinkPackets else old.uplinkPackets,
        downlinkPackets := if has6thBit v.flags then v.downlinkPackets else old.downlinkPackets } := by
  refine P.Over.run ?_ b
  unfold VolumeMeasurement.into VolumeMeasurement.parseP
  over

/-- C74 NumberOfUEIPAddresses, exact. -/
theorem C74_NumberOfUEIPAddresses_exact (old : NumberOfUEIPAddresses) (b : Slice) :
    (old.into).run b = NumberOfUEIPAddresses.parseP.run b >>= fun v => .ok
      { flags := v.flags,
        v4 := if has1stBit v.flags then v.v4 else old.v4,
        v6 := if has2ndBit v.flags then v.v6 else old.v6 } := by
  refine P.Over.run ?_ b
  unfold NumberOfUEIPAddresses.into NumberOfUEIPAddresses.parseP
  over

/-- C74 PacketDelayThresholds and QoSMonitoringMeasurement, exact. -/
theorem C74_Delays_exact (old : Delays) (b : Slice) :
    (old.into).run b = Delays.parseP.run b >>= fun v => .ok
      { flags := v.flags,
        dl := if has1stBit v.flags then v.dl else old.dl,
        ul := if has2ndBit v.flags then v.ul else old.ul,
        rp := if has3rdBit v.flags then v.rp else old.rp } := by
  refine P.Over.run ?_ b
  unfold Delays.into Delays.parseP
  over

/-- C74 DLFlowLevelMarking, exact. -/
theorem C74_DLFlowLevelMarking_exact (old : DLFlowLevelMarking) (b : Slice) :
    (old.into).run b = DLFlowLevelMarking.parseP.run b >>= fun v => .ok
      { flags := v.flags,
        ttc := if has1stBit v.flags then v.ttc else old.ttc,
        sci := if has2ndBit v.flags then v.sci else old.sci } := by
  refine P.Over.run ?_ b
  unfold DLFlowLevelMarking.into DLFlowLevelMarking.parseP
  over

/-- C74 PacketRate, exact. -/
theorem C74_PacketRate_exact (old : PacketRate) (b : Slice) :
    (old.into).run b = PacketRate.parseP.run b >>= fun v => .ok
      { flags := v.flags,
        ulUnit := if has1stBit v.flags then v.ulUnit else old.ulUnit,
        dlUnit := if has2ndBit v.flags then v.dlUnit else old.dlUnit,
        ulRate := if has1stBit v.flags then v.ulRate else old.ulRate,
        dlRate := if has2ndBit v.flags then v.dlRate else old.dlRate } := by
  refine P.Over.run ?_ b
  unfold PacketRate.into PacketRate.parseP
  over

/-- C74 PacketRateStatus, exact. -/
theorem C74_PacketRateStatus_exact (old : PacketRateStatus) (b : Slice) :
    (old.into).run b = PacketRateStatus.parseP.run b >>= fun v => .ok
      { flags := v.flags,
        ul := if has1stBit v.flags then v.ul else old.ul,
        aul := if has1stBit v.flags && has3rdBit v.flags then v.aul else old.aul,
        dl := if has2ndBit v.flags then v.dl else old.dl,
        adl := if has2ndBit v.flags && has3rdBit v.flags then v.adl else old.adl,
        vtime := v.vtime } := by
  refine P.Over.run ?_ b
  unfold PacketRateStatus.into PacketRateStatus.parseP
  over

/-- C74 AlternativeSMFIPAddress and CPPFCPEntityIPAddress, exact. -/
theorem C74_IP46_exact (old : IP46) (b : Slice) :
    (old.into).run b = IP46.parseP.run b >>= fun v => .ok
      { flags := v.flags,
        v4 := if has2ndBit v.flags then v.v4 else old.v4,
        v6 := if has1stBit v.flags then v.v6 else old.v6 } := by
  refine P.Over.run ?_ b
  unfold IP46.into IP46.parseP
  over

/-- C74 FSEID, exact. -/
theorem C74_FSEID_exact (old : FSEID) (b : Slice) :
    (old.into).run b = FSEID.parseP.run b >>= fun v => .ok
      { flags := v.flags,
        seid := v.seid,
        v4 := if has2ndBit v.flags then v.v4 else old.v4,
        v6 := if has1stBit v.flags then v.v6 else old.v6 } := by
  refine P.Over.run ?_ b
  unfold FSEID.into FSEID.parseP
  over

/-- C74 FTEID, exact. -/
theorem C74_FTEID_exact (old : FTEID) (b : Slice) :
    (old.into).run b = FTEID.parseP.run b >>= fun v => .ok
      { flags := v.flags,
        teid := if !has3rdBit v.flags then v.teid else old.teid,
        v4 := if !has3rdBit v.flags && has1stBit v.flags then v.v4 else old.v4,
        v6 := if !has3rdBit v.flags && has2ndBit v.flags then v.v6 else old.v6,
        chid := if has3rdBit v.flags && has4thBit v.flags then v.chid else old.chid } := by
  refine P.Over.run ?_ b
  unfold FTEID.into FTEID.parseP
  over

/-- C74 MPTCPAddressInformation, exact. -/
theorem C74_MPTCPAddressInformation_exact (old : MPTCPAddressInformation) (b : Slice) :
    (old.into).run b = MPTCPAddressInformation.parseP.run b >>= fun v => .ok
      { flags := v.flags,
        ptype := v.ptype,
        port := v.port,
        v4 := if has1stBit v.flags then v.v4 else old.v4,
        v6 := if has2ndBit v.flags then v.v6 else old.v6 } := by
  refine P.Over.run ?_ b
  unfold MPTCPAddressInformation.into MPTCPAddressInformation.parseP
  over

/-- C74 UELinkSpecificIPAddress, exact. -/
theorem C74_UELinkSpecificIPAddress_exact (old : UELinkSpecificIPAddress) (b : Slice) :
    (old.into).run b = UELinkSpecificIPAddress.parseP.run b >>= fun v => .ok
      { flags := v.flags,
        v4 := if has1stBit v.flags then v.v4 else old.v4,
        v6 := if has2ndBit v.flags then v.v6 else old.v6,
        nv4 := if has3rdBit v.flags then v.nv4 else old.nv4,
        nv6 := if has4thBit v.flags then v.nv6 else old.nv6 } := by
  refine P.Over.run ?_ b
  unfold UELinkSpecificIPAddress.into UELinkSpecificIPAddress.parseP
  over

/-- C74 SourceIPAddress, exact. -/
theorem C74_SourceIPAddress_exact (old : SourceIPAddress) (b : Slice) :
    (old.into).run b = SourceIPAddress.parseP.run b >>= fun v => .ok
      { flags := v.flags,
        v4 := if has2ndBit v.flags then v.v4 else old.v4,
        v6 := if has1stBit v.flags then v.v6 else old.v6,
        mpl := if has3rdBit v.flags then v.mpl else old.mpl } := by
  refine P.Over.run ?_ b
  unfold SourceIPAddress.into SourceIPAddress.parseP
  over

/-- C74 UEIPAddress, exact. -/
theorem C74_UEIPAddress_exact (old : UEIPAddress) (b : Slice) :
    (old.into).run b = UEIPAddress.parseP.run b >>= fun v => .ok
      { flags := v.flags,
        v4 := if has2ndBit v.flags && !has5thBit v.flags then v.v4 else old.v4,
        v6 := if has1stBit v.flags && !has6thBit v.flags then v.v6 else old.v6,
        v6d := if has4thBit v.flags then v.v6d else old.v6d,
        v6pl := if has7thBit v.flags then v.v6pl else old.v6pl } := by
  refine P.Over.run ?_ b
  unfold UEIPAddress.into UEIPAddress.parseP UEIPAddress.parseEnd
  over

/-- C74 RemoteGTPUPeer, exact. -/
theorem C74_RemoteGTPUPeer_exact (old : RemoteGTPUPeer) (b : Slice) :
    (old.into).run b = RemoteGTPUPeer.parseP.run b >>= fun v => .ok
      { flags := v.flags,
        v4 := if has2ndBit v.flags then v.v4 else old.v4,
        v6 := if has1stBit v.flags then v.v6 else old.v6,
        diLength := if has3rdBit v.flags then v.diLength else old.diLength,
        di := if has3rdBit v.flags then v.di else old.di,
        niLength := if has4thBit v.flags then v.niLength else old.niLength,
        ni := if has4thBit v.flags then v.ni else old.ni } := by
  refine P.Over.run ?_ b
  unfold RemoteGTPUPeer.into RemoteGTPUPeer.parseP
  over

/-- C74 IPMulticastAddress, exact. -/
theorem C74_IPMulticastAddress_exact (old : IPMulticastAddress) (b : Slice) :
    (old.into).run b = IPMulticastAddress.parseP.run b >>= fun v => .ok
      { flags := v.flags,
        sv4 := if !has4thBit v.flags && has2ndBit v.flags then v.sv4 else old.sv4,
        sv6 := if !has4thBit v.flags && has1stBit v.flags then v.sv6 else old.sv6,
        ev4 := if !has4thBit v.flags && has3rdBit v.flags && has2ndBit v.flags then v.ev4 else old.ev4,
        ev6 := if !has4thBit v.flags && has3rdBit v.flags && has1stBit v.flags then v.ev6 else old.ev6 } := by
  refine P.Over.run ?_ b
  unfold IPMulticastAddress.into IPMulticastAddress.parseP
  over

/-- C74 UserPlaneIPResourceInformation, exact. -/
theorem C74_UserPlaneIPResourceInformation_exact (old : UserPlaneIPResourceInformation) (b : Slice) :
    (old.into).run b = UserPlaneIPResourceInformation.parseP.run b >>= fun v => .ok
      { flags := v.flags,
        teidRange := if (v.flags >>> 2) &&& 0x07 != 0 then v.teidRange else old.teidRange,
        v4 := if has1stBit v.flags then v.v4 else old.v4,
        v6 := if has2ndBit v.flags then v.v6 else old.v6,
        ni := if has6thBit v.flags then v.ni else old.ni,
        si := if has7thBit v.flags then v.si else old.si } := by
  refine P.Over.run ?_ b
  unfold UserPlaneIPResourceInformation.into UserPlaneIPResourceInformation.parseP
  over

/-- C74 MACAddress, exact. -/
theorem C74_MACAddress_exact (old : MACAddress) (b : Slice) :
    (old.into).run b = MACAddress.parseP.run b >>= fun v => .ok
      { flags := v.flags,
        src := if has1stBit v.flags then v.src else old.src,
        dst := if has2ndBit v.flags then v.dst else old.dst,
        usrc := if has3rdBit v.flags then v.usrc else old.usrc,
        udst := if has4thBit v.flags then v.udst else old.udst } := by
  refine P.Over.run ?_ b
  unfold MACAddress.into MACAddress.parseP
  over

/-- C74 CTAG and STAG, exact. -/
theorem C74_Tag_exact (old : Tag) (b : Slice) :
    (old.into).run b = Tag.parseP.run b >>= fun v => .ok
      { flags := v.flags,
        pcp := if has1stBit v.flags then v.pcp else old.pcp,
        dei := if has2ndBit v.flags then v.dei else old.dei,
        cvid := if has3rdBit v.flags then v.cvid else old.cvid } := by
  refine P.Over.run ?_ b
  unfold Tag.into Tag.parseP
  over

/-- C74 SDFFilter, exact. -/
theorem C74_SDFFilter_exact (old : SDFFilter) (b : Slice) :
    (old.into).run b = SDFFilter.parseP.run b >>= fun v => .ok
      { flags := v.flags,
        fdLength := if has1stBit v.flags then v.fdLength else old.fdLength,
        fd := if has1stBit v.flags then v.fd else old.fd,
        ttc := if has2ndBit v.flags then v.ttc else old.ttc,
        spi := if has3rdBit v.flags then v.spi else old.spi,
        fl := if has4thBit v.flags then v.fl else old.fl,
        bid := if has5thBit v.flags then v.bid else old.bid } := by
  refine P.Over.run ?_ b
  unfold SDFFilter.into SDFFilter.parseP
  over

/-- C74 UserID, exact. -/
theorem C74_UserID_exact (old : UserID) (b : Slice) :
    (old.into).run b = UserID.parseP.run b >>= fun v => .ok
      { flags := v.flags,
        imsiLen := if has1stBit v.flags then v.imsiLen else old.imsiLen,
        imsi := if has1stBit v.flags then v.imsi else old.imsi,
        imeiLen := if has2ndBit v.flags then v.imeiLen else old.imeiLen,
        imei := if has2ndBit v.flags then v.imei else old.imei,
        msisdnLen := if has3rdBit v.flags then v.msisdnLen else old.msisdnLen,
        msisdn := if has3rdBit v.flags then v.msisdn else old.msisdn,
        naiLen := if has4thBit v.flags then v.naiLen else old.naiLen,
        nai := if has4thBit v.flags then v.nai else old.nai } := by
  refine P.Over.run ?_ b
  unfold UserID.into UserID.parseP
  over

/-- C74 HeaderEnrichment: every field is assigned. -/
theorem C74_HeaderEnrichment_exact (old : HeaderEnrichment) (b : Slice) :
    old.into.run b = HeaderEnrichment.parseP.run b := rfl

/-- C74 OuterHeaderCreation, exact. -/
theorem C74_OuterHeaderCreation_exact (old : OuterHeaderCreation) (b : Slice) :
    old.into.run b = OuterHeaderCreation.parseP.run b >>= fun v => .ok
      { desc := v.desc
        teid := if has1stBit (v.desc >>> 8).toUInt8 || has2ndBit (v.desc >>> 8).toUInt8 then v.teid else old.teid
        v4 := if has1stBit (v.desc >>> 8).toUInt8 || has3rdBit (v.desc >>> 8).toUInt8 || has5thBit (v.desc >>> 8).toUInt8
          then v.v4 else old.v4
        v6 := if has2ndBit (v.desc >>> 8).toUInt8 || has4thBit (v.desc >>> 8).toUInt8 || has6thBit (v.desc >>> 8).toUInt8
          then v.v6 else old.v6
        port := if has3rdBit (v.desc >>> 8).toUInt8 || has4thBit (v.desc >>> 8).toUInt8 then v.port else old.port
        ctag := old.ctag, stag := old.stag } := by
  refine P.Over.run (f := fun v : OuterHeaderCreation => ({
    desc := v.desc
    teid := if has1stBit (v.desc >>> 8).toUInt8 || has2ndBit (v.desc >>> 8).toUInt8 then v.teid else old.teid
    v4 := if has1stBit (v.desc >>> 8).toUInt8 || has3rdBit (v.desc >>> 8).toUInt8 || has5thBit (v.desc >>> 8).toUInt8
      then v.v4 else old.v4
    v6 := if has2ndBit (v.desc >>> 8).toUInt8 || has4thBit (v.desc >>> 8).toUInt8 || has6thBit (v.desc >>> 8).toUInt8
      then v.v6 else old.v6
    port := if has3rdBit (v.desc >>> 8).toUInt8 || has4thBit (v.desc >>> 8).toUInt8 then v.port else old.port
    ctag := old.ctag, stag := old.stag } : OuterHeaderCreation)) ?_ b
  unfold OuterHeaderCreation.into OuterHeaderCreation.parseP
  refine P.Over.bind (P.Over.refl _) fun _ _ _ => ?_
  refine P.Over.bind OuterHeaderCreation.parseDesc_over fun r r' h => ?_
  obtain ⟨o5, desc⟩ := r
  obtain ⟨rfl, ho⟩ := h
  simp only at ho
  subst ho
  refine P.Over.bind (P.Over.opt _ _ _) fun _ _ h => ?_
  subst h
  refine P.Over.bind (P.Over.opt _ _ _) fun _ _ h => ?_
  subst h
  refine P.Over.bind (P.Over.opt _ _ _) fun _ _ h => ?_
  subst h
  refine P.Over.bind (P.Over.opt _ _ _) fun _ _ h => ?_
  subst h
  refine P.Over.bind OuterHeaderCreation.tag_over fun _ _ h => ?_
  obtain ⟨rfl, rfl⟩ := h
  refine P.Over.bind OuterHeaderCreation.tag_over fun _ _ h => ?_
  obtain ⟨rfl, rfl⟩ := h
  exact P.Over.pure rfl

/-- C74 PMFAddressInformation, exact: the outcome, and every field but the MAC addresses. -/
theorem C74_PMFAddressInformation_exact (old : PMFAddressInformation) (b : Slice) :
    (old.into.run b >>= fun v => .ok { v with mac1 := none, mac2 := none }) =
      PMFAddressInformation.parseP.run b >>= fun v => .ok
        { v with v4 := if has1stBit v.flags then v.v4 else old.v4
                 v6 := if has2ndBit v.flags then v.v6 else old.v6 } := by
  refine P.Over.runMap (f := fun v : PMFAddressInformation => { v with
    v4 := if has1stBit v.flags then v.v4 else old.v4, v6 := if has2ndBit v.flags then v.v6 else old.v6 })
    (g := fun v : PMFAddressInformation => { v with mac1 := none, mac2 := none }) ?_ b
  unfold PMFAddressInformation.into PMFAddressInformation.parseP
  over

/-- C74 RedirectInformation, exact. -/
theorem C74_RedirectInformation_exact (old : RedirectInformation) (b : Slice) :
    old.into.run b = RedirectInformation.parseP.run b >>= fun v => .ok
      { v with addr2 := if v.len2 = 0 then old.addr2 else v.addr2 } := by
  refine P.Over.run (f := fun v : RedirectInformation => { v with addr2 := if v.len2 = 0 then old.addr2 else v.addr2 }) ?_ b
  unfold RedirectInformation.into RedirectInformation.parseP
  repeat' with_reducible refine P.Over.bind (P.Over.refl _) (fun _ _ h => ?_) <;> subst h
  rename_i m
  unfold RedirectInformation.parseOther
  by_cases hm : m = 0
  · subst hm
    exact P.Over.bind (R := fun a _ => a = old.addr2) (P.Over.pure rfl) fun _ _ h => P.Over.pure (by subst h; rfl)
  · rw [if_pos hm, if_pos hm]
    exact P.Over.bind (P.Over.refl _) fun _ _ h => P.Over.pure (by subst h; simp [hm])

/-- C74 TraceInformation, exact: the outcome, and every field but the three copied ones. -/
theorem C74_TraceInformation_exact (old : TraceInformation) (b : Slice) :
    (old.into.run b >>= fun v => .ok { v with events := [], ifs := [], ip := none }) =
      TraceInformation.parseP.run b >>= fun v => .ok v := by
  refine P.Over.runMap (f := fun v : TraceInformation => v)
    (g := fun v : TraceInformation => { v with events := [], ifs := [], ip := none }) ?_ b
  unfold TraceInformation.into TraceInformation.parseP
  refine P.Over.bind (P.Over.refl _) fun _ _ h => ?_
  refine P.Over.bind (P.Over.refl _) fun _ _ h => ?_
  subst h
  refine P.Over.bind (P.Over.refl _) fun _ _ h => ?_
  subst h
  refine P.Over.bind TraceInformation.copied_over fun _ _ h1 => ?_
  refine P.Over.bind (P.Over.refl _) fun _ _ h => ?_
  subst h
  refine P.Over.bind TraceInformation.copied_over fun _ _ h2 => ?_
  refine P.Over.bind TraceInformation.copied_over fun _ _ h3 => ?_
  subst h1 h2 h3
  exact P.Over.pure rfl

/-- C74 MACAddressesDetected and MACAddressesRemoved, exact: the outcome, and every field but the two copied ones. The
addresses collect. -/
theorem C74_MACAddresses_exact (old : MACAddresses) (b : Slice) :
    (old.into.run b >>= fun v => .ok { v with ctag := [], stag := [] }) =
      MACAddresses.parseP.run b >>= fun v => .ok { v with macs := old.macs ++ v.macs } := by
  refine P.Over.runMap (f := fun v : MACAddresses => { v with macs := old.macs ++ v.macs })
    (g := fun v : MACAddresses => { v with ctag := [], stag := [] }) ?_ b
  unfold MACAddresses.into MACAddresses.parseP
  refine P.Over.bind (P.Over.refl _) fun _ _ h => ?_
  refine P.Over.bind (P.Over.refl _) fun _ _ h => ?_
  subst h
  refine P.Over.bind (P.Over.refl _) fun _ _ h => ?_
  subst h
  refine P.Over.bind MACAddresses.copied_over fun _ _ h1 => ?_
  refine P.Over.bind MACAddresses.copied_over fun _ _ h2 => ?_
  subst h1 h2
  exact P.Over.pure rfl

/-- C74 the MAC addresses of PMF address information: those on the wire are copied over those that the value has. -/
theorem C74_PMFAddressInformation_copied (old v : PMFAddressInformation) (b : Slice) (h : old.into.run b = .ok v) :
    CopiedOverIP old.mac1 v.mac1 b.data
      (5 + (if has1stBit v.flags then 4 else 0) + (if has2ndBit v.flags then 16 else 0)) 6 ∧
    CopiedOverIP old.mac2 v.mac2 b.data
      (11 + (if has1stBit v.flags then 4 else 0) + (if has2ndBit v.flags then 16 else 0)) 6 := by
  obtain ⟨o, h⟩ := P.run_inv h
  unfold PMFAddressInformation.into at h
  obtain ⟨_, o0, h0, hT⟩ := P.bind_inv h; clear h; have h := hT; clear hT
  have e0 : o0 = 0 := by
    unfold P.minLen at h0
    split at h0
    · cases h0
    · cases h0; rfl
  subst e0
  obtain ⟨fl, o1, h1, hT⟩ := P.bind_inv h; clear h; have h := hT; clear hT
  obtain ⟨_, rfl⟩ := P.u8_inv h1
  obtain ⟨a4, o2, h2, hT⟩ := P.bind_inv h; clear h; have h := hT; clear hT
  have e2 : o2 = 1 + (if has1stBit fl then 4 else 0) := by
    unfold PMFAddressInformation.hasIPv4 P.opt at h2
    split at h2
    · obtain ⟨_, _, h3, hT⟩ := P.bind_inv h2; clear h2; have h2 := hT; clear hT
      obtain ⟨_, rfl, _⟩ := P.field_inv h3
      cases h2
      simp [*]
    · cases h2
      simp [*]
  obtain ⟨a6, o3, h3, hT⟩ := P.bind_inv h; clear h; have h := hT; clear hT
  have e3 : o3 = o2 + (if has2ndBit fl then 16 else 0) := by
    unfold PMFAddressInformation.hasIPv6 P.opt at h3
    split at h3
    · obtain ⟨_, _, h4a, hT⟩ := P.bind_inv h3; clear h3; have h3 := hT; clear hT
      obtain ⟨_, rfl, _⟩ := P.field_inv h4a
      cases h3
      simp [*]
    · cases h3
      simp [*]
  obtain ⟨p1, o4, h4, hT⟩ := P.bind_inv h; clear h; have h := hT; clear hT
  obtain ⟨_, _, h4a, h4'⟩ := P.bind_inv h4
  obtain ⟨_, rfl, _⟩ := P.field_inv h4a
  cases h4'
  obtain ⟨p2, o5, h5, hT⟩ := P.bind_inv h; clear h; have h := hT; clear hT
  obtain ⟨_, _, h5a, h5'⟩ := P.bind_inv h5
  obtain ⟨_, rfl, _⟩ := P.field_inv h5a
  cases h5'
  obtain ⟨m1, o6, h6, hT⟩ := P.bind_inv h; clear h; have h := hT; clear hT
  obtain ⟨hm1, rfl, hl1⟩ := P.field_inv h6
  obtain ⟨m2, o7, h7, hT⟩ := P.bind_inv h; clear h; have h := hT; clear hT
  obtain ⟨hm2, rfl, hl2⟩ := P.field_inv h7
  cases h
  refine ⟨?_, ?_⟩
  · have e : 5 + (if has1stBit fl then 4 else 0) + (if has2ndBit fl then 16 else 0) = o3 + 2 + 2 := by omega
    rw [e]
    exact copiedOverIP hl1 hm1
  · have e : 11 + (if has1stBit fl then 4 else 0) + (if has2ndBit fl then 16 else 0) = o3 + 2 + 2 + 6 := by omega
    rw [e]
    exact copiedOverIP hl2 hm2

/-- C74 the events, interfaces and address of trace information: those on the wire are copied over those that the value
has. -/
theorem C74_TraceInformation_copied (old v : TraceInformation) (b : Slice) (h : old.into.run b = .ok v) :
    CopiedOver old.events v.events b.data 7 v.eventsLen.toNat ∧
    CopiedOver old.ifs v.ifs b.data (9 + v.eventsLen.toNat) v.ifsLen.toNat ∧
    CopiedOverIP old.ip v.ip b.data (10 + v.eventsLen.toNat + v.ifsLen.toNat) v.ipLen.toNat := by
  obtain ⟨o, h⟩ := P.run_inv h
  unfold TraceInformation.into at h
  obtain ⟨_, o0, h0, hT⟩ := P.bind_inv h; clear h; have h := hT; clear hT
  have e0 : o0 = 0 := by
    unfold P.minLen at h0
    split at h0
    · cases h0
    · cases h0; rfl
  subst e0
  obtain ⟨pl, o1, h1, hT⟩ := P.bind_inv h; clear h; have h := hT; clear hT
  have e1 : o1 = 3 := by
    unfold TraceInformation.parsePLMN at h1
    cases hx : Slice.sub b 0 (0 + 3) with
    | panic => rw [hx] at h1; cases h1
    | err e => rw [hx] at h1; cases h1
    | ok x =>
      rw [hx] at h1
      cases hy : Text.decodePLMN x.data with
      | panic => simp only [Res.ok_bind, hy] at h1; cases h1
      | err e => simp only [Res.ok_bind, hy] at h1; cases h1
      | ok x => simp only [Res.ok_bind, hy] at h1; cases h1; rfl
  subst e1
  obtain ⟨id, o2, h2, hT⟩ := P.bind_inv h; clear h; have h := hT; clear hT
  have e2 : o2 = 6 := by
    unfold P.bytes at h2
    cases hx : Slice.sub b 3 (3 + 3) with
    | panic => rw [hx] at h2; cases h2
    | err e => rw [hx] at h2; cases h2
    | ok x => rw [hx] at h2; cases h2; rfl
  subst e2
  obtain ⟨n1, o3, h3, hT⟩ := P.bind_inv h; clear h; have h := hT; clear hT
  obtain ⟨hx1, rfl, hl1⟩ := TraceInformation.copied_inv h3
  obtain ⟨de, o4, h4, hT⟩ := P.bind_inv h; clear h; have h := hT; clear hT
  have e4 := TraceInformation.octet_inv h4
  subst e4
  obtain ⟨n2, o5, h5, hT⟩ := P.bind_inv h; clear h; have h := hT; clear hT
  obtain ⟨hx2, rfl, hl2⟩ := TraceInformation.copied_inv h5
  obtain ⟨n3, o6, h6, hT⟩ := P.bind_inv h; clear h; have h := hT; clear hT
  obtain ⟨hx3, rfl, hl3⟩ := TraceInformation.copied_inv h6
  cases h
  refine ⟨copiedOver hl1 hx1, ?_, ?_⟩
  · have e : 9 + n1.1.toNat = 6 + 1 + n1.1.toNat + 1 + 1 := by omega
    show CopiedOver _ _ _ (9 + n1.1.toNat) _
    rw [e]
    exact copiedOver hl2 hx2
  · have e : 10 + n1.1.toNat + n2.1.toNat = 6 + 1 + n1.1.toNat + 1 + 1 + n2.1.toNat + 1 := by omega
    show CopiedOverIP _ _ _ (10 + n1.1.toNat + n2.1.toNat) _
    rw [e]
    exact copiedOverIP hl3 hx3

/-- C74 the tags behind MAC addresses: the octets on the wire, from the length octet of the first tag on, are copied over
those that the value has. -/
theorem C74_MACAddresses_copied (old v : MACAddresses) (b : Slice) (h : old.into.run b = .ok v) :
    CopiedOver old.ctag v.ctag b.data (7 + 6 * v.n.toNat) v.ctagLen.toNat ∧
    CopiedOver old.stag v.stag b.data (7 + 6 * v.n.toNat) v.stagLen.toNat := by
  obtain ⟨o, h⟩ := P.run_inv h
  unfold MACAddresses.into at h
  obtain ⟨_, o0, h0, hT⟩ := P.bind_inv h; clear h; have h := hT; clear hT
  have e0 : o0 = 0 := by
    unfold P.minLen at h0
    split at h0
    · cases h0
    · cases h0; rfl
  subst e0
  obtain ⟨n, o1, h1, hT⟩ := P.bind_inv h; clear h; have h := hT; clear hT
  obtain ⟨_, rfl⟩ := P.u8_inv h1
  obtain ⟨ms, o2, h2, hT⟩ := P.bind_inv h; clear h; have h := hT; clear hT
  have e2 := MACAddresses.macs_inv _ h2
  subst e2
  obtain ⟨ct, o3, h3, hT⟩ := P.bind_inv h; clear h; have h := hT; clear hT
  obtain ⟨hx1, rfl, hl1⟩ := MACAddresses.copied_inv h3
  obtain ⟨st, o4, h4, hT⟩ := P.bind_inv h; clear h; have h := hT; clear hT
  obtain ⟨hx2, rfl, hl2⟩ := MACAddresses.copied_inv h4
  cases h
  have e : 7 + 6 * n.toNat = 0 + 1 + 6 * (n.toNat + 1) := by omega
  show CopiedOver _ _ _ (7 + 6 * n.toNat) _ ∧ CopiedOver _ _ _ (7 + 6 * n.toNat) _
  rw [e]
  exact ⟨copiedOver hl1 hx1, copiedOver hl2 hx2⟩

example : ∃ (old v : TraceInformation) (b : Slice), old.into.run b = .ok v ∧ old.events.length = 1 ∧ v.eventsLen = 2 :=
  ⟨⟨[], [], [], 0, [9], 0, 0, [], 0, none⟩, ⟨[48, 48, 49], [48, 49], [1, 2, 3], 2, [5], 0, 0, [], 0, none⟩,
    ⟨[0x00, 0xf1, 0x10, 1, 2, 3, 2, 5, 6, 0, 0, 0], []⟩, by decide +kernel, rfl, rfl⟩

/-- C74 PFDContents: decoding into a used value reports a short buffer, or does what decoding into a new one does and leaves
the parts that are not announced, with the announced lists behind the old ones. -/
theorem C74_PFDContents_partial (old : PFDContents) (b : Slice) :
    old.into.run b = .err .unexpectedEOF ∨
    old.into.run b = PFDContents.parseP.run b >>= fun v => .ok
  { flags := v.flags
    fdLen := if has1stBit v.flags then v.fdLen else old.fdLen
    fd := if has1stBit v.flags then v.fd else old.fd
    urlLen := if has2ndBit v.flags then v.urlLen else old.urlLen
    url := if has2ndBit v.flags then v.url else old.url
    dnLen := if has3rdBit v.flags then v.dnLen else old.dnLen
    dn := if has3rdBit v.flags then v.dn else old.dn
    cpLen := if has4thBit v.flags then v.cpLen else old.cpLen
    cp := if has4thBit v.flags then v.cp else old.cp
    dnpLen := if has5thBit v.flags then v.dnpLen else old.dnpLen
    dnp := if has5thBit v.flags then v.dnp else old.dnp
    afdLen := if has6thBit v.flags then v.afdLen else old.afdLen
    afd := if has6thBit v.flags then old.afd ++ v.afd else old.afd
    aurlLen := if has7thBit v.flags then v.aurlLen else old.aurlLen
    aurl := if has7thBit v.flags then old.aurl ++ v.aurl else old.aurl
    adnpLen := if has8thBit v.flags then v.adnpLen else old.adnpLen
    adnp := if has8thBit v.flags then old.adnp ++ v.adnp else old.adnp } :=
  P.Over.runOr (f := PFDContents.laidOver old) (PFDContents.into_over old fun _ _ => trivial) b

/-- C74 PFDContents: the first of these happens only with old lengths. -/
theorem C74_PFDContents_exact (old : PFDContents) (b : Slice) (h : old.fdLen = 0 ∧ old.urlLen = 0 ∧ old.dnLen = 0 ∧
    old.cpLen = 0 ∧ old.dnpLen = 0 ∧ old.afdLen = 0 ∧ old.aurlLen = 0 ∧ old.adnpLen = 0) :
    old.into.run b = PFDContents.parseP.run b >>= fun v => .ok
  { flags := v.flags
    fdLen := if has1stBit v.flags then v.fdLen else old.fdLen
    fd := if has1stBit v.flags then v.fd else old.fd
    urlLen := if has2ndBit v.flags then v.urlLen else old.urlLen
    url := if has2ndBit v.flags then v.url else old.url
    dnLen := if has3rdBit v.flags then v.dnLen else old.dnLen
    dn := if has3rdBit v.flags then v.dn else old.dn
    cpLen := if has4thBit v.flags then v.cpLen else old.cpLen
    cp := if has4thBit v.flags then v.cp else old.cp
    dnpLen := if has5thBit v.flags then v.dnpLen else old.dnpLen
    dnp := if has5thBit v.flags then v.dnp else old.dnp
    afdLen := if has6thBit v.flags then v.afdLen else old.afdLen
    afd := if has6thBit v.flags then old.afd ++ v.afd else old.afd
    aurlLen := if has7thBit v.flags then v.aurlLen else old.aurlLen
    aurl := if has7thBit v.flags then old.aurl ++ v.aurl else old.aurl
    adnpLen := if has8thBit v.flags then v.adnpLen else old.adnpLen
    adnp := if has8thBit v.flags then old.adnp ++ v.adnp else old.adnp } := by
  refine P.Over.run (f := PFDContents.laidOver old) (PFDContents.into_over old fun fl hl => ?_) b
  obtain ⟨h1, h2, h3, h4, h5, h6, h7, h8⟩ := h
  unfold PFDContents.Lengths at hl
  simp [h1, h2, h3, h4, h5, h6, h7, h8] at hl

/-! ### Encoders that go by the flags do not see what is left over -/

/-- C74 the volume quotas and thresholds: encoding again gives the same. -/
theorem C74_Volume_reencode (old v w : Volume) (b : Slice) (hv : old.into.run b = .ok v)
    (hw : Volume.parseP.run b = .ok w) : Volume.codec.marshal v = Volume.codec.marshal w := by
  rw [C74_Volume_exact, hw] at hv
  cases hv
  simp only [Volume.codec, Volume.marshalW, Volume.marshalLen, Volume.hasTOVOL, Volume.hasULVOL, Volume.hasDLVOL]
  rcases Bool.eq_false_or_eq_true (has1stBit w.flags) with h1 | h1 <;>
    rcases Bool.eq_false_or_eq_true (has2ndBit w.flags) with h2 | h2 <;>
    rcases Bool.eq_false_or_eq_true (has3rdBit w.flags) with h3 | h3 <;>
    simp [W.opt, h1, h2, h3]

/-- C74 VolumeMeasurement: encoding again gives the same. -/
theorem C74_VolumeMeasurement_reencode (old v w : VolumeMeasurement) (b : Slice) (hv : old.into.run b = .ok v)
    (hw : VolumeMeasurement.parseP.run b = .ok w) : VolumeMeasurement.codec.marshal v = VolumeMeasurement.codec.marshal w := by
  rw [C74_VolumeMeasurement_exact, hw] at hv
  cases hv
  simp only [VolumeMeasurement.codec, VolumeMeasurement.marshalW, VolumeMeasurement.marshalLen, VolumeMeasurement.hasTOVOL, VolumeMeasurement.hasULVOL, VolumeMeasurement.hasDLVOL, VolumeMeasurement.hasTONOP, VolumeMeasurement.hasULNOP, VolumeMeasurement.hasDLNOP]
  rcases Bool.eq_false_or_eq_true (has1stBit w.flags) with h1 | h1 <;>
    rcases Bool.eq_false_or_eq_true (has2ndBit w.flags) with h2 | h2 <;>
    rcases Bool.eq_false_or_eq_true (has3rdBit w.flags) with h3 | h3 <;>
    rcases Bool.eq_false_or_eq_true (has4thBit w.flags) with h4 | h4 <;>
    rcases Bool.eq_false_or_eq_true (has5thBit w.flags) with h5 | h5 <;>
    rcases Bool.eq_false_or_eq_true (has6thBit w.flags) with h6 | h6 <;>
    simp [W.opt, h1, h2, h3, h4, h5, h6]

/-- C74 NumberOfUEIPAddresses: encoding again gives the same. -/
theorem C74_NumberOfUEIPAddresses_reencode (old v w : NumberOfUEIPAddresses) (b : Slice) (hv : old.into.run b = .ok v)
    (hw : NumberOfUEIPAddresses.parseP.run b = .ok w) : NumberOfUEIPAddresses.codec.marshal v = NumberOfUEIPAddresses.codec.marshal w := by
  rw [C74_NumberOfUEIPAddresses_exact, hw] at hv
  cases hv
  simp only [NumberOfUEIPAddresses.codec, NumberOfUEIPAddresses.marshalW, NumberOfUEIPAddresses.marshalLen, NumberOfUEIPAddresses.hasNumIPv4, NumberOfUEIPAddresses.hasNumIPv6]
  rcases Bool.eq_false_or_eq_true (has1stBit w.flags) with h1 | h1 <;>
    rcases Bool.eq_false_or_eq_true (has2ndBit w.flags) with h2 | h2 <;>
    simp [W.opt, h1, h2]

/-- C74 PacketDelayThresholds and QoSMonitoringMeasurement: encoding again gives the same. -/
theorem C74_Delays_reencode (old v w : Delays) (b : Slice) (hv : old.into.run b = .ok v)
    (hw : Delays.parseP.run b = .ok w) : Delays.codec.marshal v = Delays.codec.marshal w := by
  rw [C74_Delays_exact, hw] at hv
  cases hv
  simp only [Delays.codec, Delays.marshalW, Delays.marshalLen, Delays.hasDL, Delays.hasUL, Delays.hasRP]
  rcases Bool.eq_false_or_eq_true (has1stBit w.flags) with h1 | h1 <;>
    rcases Bool.eq_false_or_eq_true (has2ndBit w.flags) with h2 | h2 <;>
    rcases Bool.eq_false_or_eq_true (has3rdBit w.flags) with h3 | h3 <;>
    simp [W.opt, h1, h2, h3]

/-- C74 DLFlowLevelMarking: encoding again gives the same. -/
theorem C74_DLFlowLevelMarking_reencode (old v w : DLFlowLevelMarking) (b : Slice) (hv : old.into.run b = .ok v)
    (hw : DLFlowLevelMarking.parseP.run b = .ok w) : DLFlowLevelMarking.codec.marshal v = DLFlowLevelMarking.codec.marshal w := by
  rw [C74_DLFlowLevelMarking_exact, hw] at hv
  cases hv
  simp only [DLFlowLevelMarking.codec, DLFlowLevelMarking.marshalW, DLFlowLevelMarking.marshalLen]
  rcases Bool.eq_false_or_eq_true (has1stBit w.flags) with h1 | h1 <;>
    rcases Bool.eq_false_or_eq_true (has2ndBit w.flags) with h2 | h2 <;>
    simp [W.opt, h1, h2]

/-- C74 PacketRate: encoding again gives the same. -/
theorem C74_PacketRate_reencode (old v w : PacketRate) (b : Slice) (hv : old.into.run b = .ok v)
    (hw : PacketRate.parseP.run b = .ok w) : PacketRate.codec.marshal v = PacketRate.codec.marshal w := by
  rw [C74_PacketRate_exact, hw] at hv
  cases hv
  simp only [PacketRate.codec, PacketRate.marshalW, PacketRate.marshalLen]
  rcases Bool.eq_false_or_eq_true (has1stBit w.flags) with h1 | h1 <;>
    rcases Bool.eq_false_or_eq_true (has2ndBit w.flags) with h2 | h2 <;>
    simp [W.opt, h1, h2]

/-- C74 PacketRateStatus: encoding again gives the same. -/
theorem C74_PacketRateStatus_reencode (old v w : PacketRateStatus) (b : Slice) (hv : old.into.run b = .ok v)
    (hw : PacketRateStatus.parseP.run b = .ok w) : PacketRateStatus.codec.marshal v = PacketRateStatus.codec.marshal w := by
  rw [C74_PacketRateStatus_exact, hw] at hv
  cases hv
  simp only [PacketRateStatus.codec, PacketRateStatus.marshalW, PacketRateStatus.marshalLen, PacketRateStatus.hasUL, PacketRateStatus.hasDL, PacketRateStatus.hasAPR]
  rcases Bool.eq_false_or_eq_true (has1stBit w.flags) with h1 | h1 <;>
    rcases Bool.eq_false_or_eq_true (has2ndBit w.flags) with h2 | h2 <;>
    rcases Bool.eq_false_or_eq_true (has3rdBit w.flags) with h3 | h3 <;>
    simp [W.opt, h1, h2, h3]

/-- C74 FTEID: encoding again gives the same. -/
theorem C74_FTEID_reencode (old v w : FTEID) (b : Slice) (hv : old.into.run b = .ok v)
    (hw : FTEID.parseP.run b = .ok w) : FTEID.codec.marshal v = FTEID.codec.marshal w := by
  rw [C74_FTEID_exact, hw] at hv
  cases hv
  simp only [FTEID.codec, FTEID.marshalW, FTEID.marshalLen, FTEID.hasCh, FTEID.hasChID, FTEID.hasIPv4, FTEID.hasIPv6, W.ip4, W.ip16]
  rcases Bool.eq_false_or_eq_true (has1stBit w.flags) with h1 | h1 <;>
    rcases Bool.eq_false_or_eq_true (has2ndBit w.flags) with h2 | h2 <;>
    rcases Bool.eq_false_or_eq_true (has3rdBit w.flags) with h3 | h3 <;>
    rcases Bool.eq_false_or_eq_true (has4thBit w.flags) with h4 | h4 <;>
    simp [W.opt, h1, h2, h3, h4]

/-- C74 MPTCPAddressInformation: encoding again gives the same. -/
theorem C74_MPTCPAddressInformation_reencode (old v w : MPTCPAddressInformation) (b : Slice) (hv : old.into.run b = .ok v)
    (hw : MPTCPAddressInformation.parseP.run b = .ok w) : MPTCPAddressInformation.codec.marshal v = MPTCPAddressInformation.codec.marshal w := by
  rw [C74_MPTCPAddressInformation_exact, hw] at hv
  cases hv
  simp only [MPTCPAddressInformation.codec, MPTCPAddressInformation.marshalW, MPTCPAddressInformation.marshalLen, MPTCPAddressInformation.hasIPv4, MPTCPAddressInformation.hasIPv6, W.ip4, W.ip16]
  rcases Bool.eq_false_or_eq_true (has1stBit w.flags) with h1 | h1 <;>
    rcases Bool.eq_false_or_eq_true (has2ndBit w.flags) with h2 | h2 <;>
    simp [W.opt, h1, h2]

/-- C74 UELinkSpecificIPAddress: encoding again gives the same. -/
theorem C74_UELinkSpecificIPAddress_reencode (old v w : UELinkSpecificIPAddress) (b : Slice) (hv : old.into.run b = .ok v)
    (hw : UELinkSpecificIPAddress.parseP.run b = .ok w) : UELinkSpecificIPAddress.codec.marshal v = UELinkSpecificIPAddress.codec.marshal w := by
  rw [C74_UELinkSpecificIPAddress_exact, hw] at hv
  cases hv
  simp only [UELinkSpecificIPAddress.codec, UELinkSpecificIPAddress.marshalW, UELinkSpecificIPAddress.marshalLen, UELinkSpecificIPAddress.hasIPv4, UELinkSpecificIPAddress.hasIPv6, UELinkSpecificIPAddress.hasNV4, UELinkSpecificIPAddress.hasNV6, W.ip4, W.ip16]
  rcases Bool.eq_false_or_eq_true (has1stBit w.flags) with h1 | h1 <;>
    rcases Bool.eq_false_or_eq_true (has2ndBit w.flags) with h2 | h2 <;>
    rcases Bool.eq_false_or_eq_true (has3rdBit w.flags) with h3 | h3 <;>
    rcases Bool.eq_false_or_eq_true (has4thBit w.flags) with h4 | h4 <;>
    simp [W.opt, h1, h2, h3, h4]

/-- C74 SourceIPAddress: encoding again gives the same. -/
theorem C74_SourceIPAddress_reencode (old v w : SourceIPAddress) (b : Slice) (hv : old.into.run b = .ok v)
    (hw : SourceIPAddress.parseP.run b = .ok w) : SourceIPAddress.codec.marshal v = SourceIPAddress.codec.marshal w := by
  rw [C74_SourceIPAddress_exact, hw] at hv
  cases hv
  simp only [SourceIPAddress.codec, SourceIPAddress.marshalW, SourceIPAddress.marshalLen, SourceIPAddress.hasIPv4, SourceIPAddress.hasIPv6, SourceIPAddress.hasMPL, W.ip4, W.ip16]
  rcases Bool.eq_false_or_eq_true (has1stBit w.flags) with h1 | h1 <;>
    rcases Bool.eq_false_or_eq_true (has2ndBit w.flags) with h2 | h2 <;>
    rcases Bool.eq_false_or_eq_true (has3rdBit w.flags) with h3 | h3 <;>
    simp [W.opt, h1, h2, h3]

/-- C74 UEIPAddress: encoding again gives the same. -/
theorem C74_UEIPAddress_reencode (old v w : UEIPAddress) (b : Slice) (hv : old.into.run b = .ok v)
    (hw : UEIPAddress.parseP.run b = .ok w) : UEIPAddress.codec.marshal v = UEIPAddress.codec.marshal w := by
  rw [C74_UEIPAddress_exact, hw] at hv
  cases hv
  simp only [UEIPAddress.codec, UEIPAddress.marshalW, UEIPAddress.marshalLen, UEIPAddress.hasIPv4, UEIPAddress.hasIPv6]
  rcases Bool.eq_false_or_eq_true (has1stBit w.flags) with h1 | h1 <;>
    rcases Bool.eq_false_or_eq_true (has2ndBit w.flags) with h2 | h2 <;>
    rcases Bool.eq_false_or_eq_true (has4thBit w.flags) with h3 | h3 <;>
    rcases Bool.eq_false_or_eq_true (has5thBit w.flags) with h4 | h4 <;>
    rcases Bool.eq_false_or_eq_true (has6thBit w.flags) with h5 | h5 <;>
    rcases Bool.eq_false_or_eq_true (has7thBit w.flags) with h6 | h6 <;>
    simp [W.opt, h1, h2, h3, h4, h5, h6]

/-- C74 RemoteGTPUPeer: encoding again gives the same. -/
theorem C74_RemoteGTPUPeer_reencode (old v w : RemoteGTPUPeer) (b : Slice) (hv : old.into.run b = .ok v)
    (hw : RemoteGTPUPeer.parseP.run b = .ok w) : RemoteGTPUPeer.codec.marshal v = RemoteGTPUPeer.codec.marshal w := by
  rw [C74_RemoteGTPUPeer_exact, hw] at hv
  cases hv
  simp only [RemoteGTPUPeer.codec, RemoteGTPUPeer.marshalW, RemoteGTPUPeer.marshalLen]
  rcases Bool.eq_false_or_eq_true (has1stBit w.flags) with h1 | h1 <;>
    rcases Bool.eq_false_or_eq_true (has2ndBit w.flags) with h2 | h2 <;>
    rcases Bool.eq_false_or_eq_true (has3rdBit w.flags) with h3 | h3 <;>
    rcases Bool.eq_false_or_eq_true (has4thBit w.flags) with h4 | h4 <;>
    simp [W.opt, h1, h2, h3, h4]

/-- C74 UserPlaneIPResourceInformation: encoding again gives the same. -/
theorem C74_UserPlaneIPResourceInformation_reencode (old v w : UserPlaneIPResourceInformation) (b : Slice) (hv : old.into.run b = .ok v)
    (hw : UserPlaneIPResourceInformation.parseP.run b = .ok w) : UserPlaneIPResourceInformation.codec.marshal v = UserPlaneIPResourceInformation.codec.marshal w := by
  rw [C74_UserPlaneIPResourceInformation_exact, hw] at hv
  cases hv
  simp only [UserPlaneIPResourceInformation.codec, UserPlaneIPResourceInformation.marshalW, UserPlaneIPResourceInformation.marshalLen, UserPlaneIPResourceInformation.hasTEIDRI]
  rcases Bool.eq_false_or_eq_true (((w.flags >>> 2) &&& 0x07 != 0)) with h0 | h0 <;>
    rcases Bool.eq_false_or_eq_true (has1stBit w.flags) with h1 | h1 <;>
    rcases Bool.eq_false_or_eq_true (has2ndBit w.flags) with h2 | h2 <;>
    rcases Bool.eq_false_or_eq_true (has6thBit w.flags) with h3 | h3 <;>
    rcases Bool.eq_false_or_eq_true (has7thBit w.flags) with h4 | h4 <;>
    simp [W.opt, h0, h1, h2, h3, h4]

/-- C74 SDFFilter: encoding again gives the same. -/
theorem C74_SDFFilter_reencode (old v w : SDFFilter) (b : Slice) (hv : old.into.run b = .ok v)
    (hw : SDFFilter.parseP.run b = .ok w) : SDFFilter.codec.marshal v = SDFFilter.codec.marshal w := by
  rw [C74_SDFFilter_exact, hw] at hv
  cases hv
  simp only [SDFFilter.codec, SDFFilter.marshalW, SDFFilter.marshalLen, SDFFilter.hasFD, SDFFilter.hasTTC, SDFFilter.hasSPI, SDFFilter.hasFL, SDFFilter.hasBID]
  rcases Bool.eq_false_or_eq_true (has1stBit w.flags) with h1 | h1 <;>
    rcases Bool.eq_false_or_eq_true (has2ndBit w.flags) with h2 | h2 <;>
    rcases Bool.eq_false_or_eq_true (has3rdBit w.flags) with h3 | h3 <;>
    rcases Bool.eq_false_or_eq_true (has4thBit w.flags) with h4 | h4 <;>
    rcases Bool.eq_false_or_eq_true (has5thBit w.flags) with h5 | h5 <;>
    simp [W.opt, h1, h2, h3, h4, h5]

/-- C74 UserID: encoding again gives the same. -/
theorem C74_UserID_reencode (old v w : UserID) (b : Slice) (hv : old.into.run b = .ok v)
    (hw : UserID.parseP.run b = .ok w) : UserID.codec.marshal v = UserID.codec.marshal w := by
  rw [C74_UserID_exact, hw] at hv
  cases hv
  simp only [UserID.codec, UserID.marshalW, UserID.marshalLen]
  rcases Bool.eq_false_or_eq_true (has1stBit w.flags) with h1 | h1 <;>
    rcases Bool.eq_false_or_eq_true (has2ndBit w.flags) with h2 | h2 <;>
    rcases Bool.eq_false_or_eq_true (has3rdBit w.flags) with h3 | h3 <;>
    rcases Bool.eq_false_or_eq_true (has4thBit w.flags) with h4 | h4 <;>
    simp [W.opt, h1, h2, h3, h4]

/-! ### Violations -/

/-- Not the same value: a quota with only an uplink volume, decoded into a value that had a total volume, still shows the
total volume. -/
theorem C74_stale_violated : ∃ (old v w : Volume) (b : Slice), old.into.run b = .ok v ∧ Volume.parseP.run b = .ok w ∧
    v ≠ w ∧ v.total = 7 ∧ w.total = 0 :=
  ⟨⟨1, 7, 0, 0⟩, ⟨2, 7, 5, 0⟩, ⟨2, 0, 5, 0⟩, ⟨[2, 0, 0, 0, 0, 0, 0, 0, 5], []⟩, by decide +kernel, by decide +kernel,
    by decide, rfl, rfl⟩

/-- Not the same octets again: an IPv4 address decoded into a value that had an IPv6 address is encoded with both behind
flags that announce only the first. -/
theorem C74_addresses_violated : ∃ (old v w : IP46) (b : Slice), old.into.run b = .ok v ∧ IP46.parseP.run b = .ok w ∧
    IP46.codec.marshal w = .ok b.data ∧ IP46.codec.marshal v = .ok (b.data ++ List.replicate 16 9) :=
  ⟨⟨1, none, some (List.replicate 16 9)⟩, ⟨2, some [10, 0, 0, 1], some (List.replicate 16 9)⟩, ⟨2, some [10, 0, 0, 1], none⟩,
    ⟨[2, 10, 0, 0, 1], []⟩, by decide +kernel, by decide +kernel, by decide +kernel, by decide +kernel⟩

/-- The same with an F-SEID: the stale address is not written, but room is left for it. -/
theorem C74_FSEID_violated : ∃ (old v w : FSEID) (b : Slice), old.into.run b = .ok v ∧ FSEID.parseP.run b = .ok w ∧
    FSEID.codec.marshal w = .ok b.data ∧ FSEID.codec.marshal v = .ok (b.data ++ List.replicate 16 0) :=
  ⟨⟨1, 0, none, some (List.replicate 16 9)⟩, ⟨2, 5, some [10, 0, 0, 1], some (List.replicate 16 9)⟩,
    ⟨2, 5, some [10, 0, 0, 1], none⟩, ⟨[2, 0, 0, 0, 0, 0, 0, 0, 5, 10, 0, 0, 1], []⟩, by decide +kernel, by decide +kernel,
    by decide +kernel, by decide +kernel⟩

/-- The same with a multicast address. -/
theorem C74_IPMulticastAddress_violated : ∃ (old v w : IPMulticastAddress) (b : Slice), old.into.run b = .ok v ∧
    IPMulticastAddress.parseP.run b = .ok w ∧ IPMulticastAddress.codec.marshal w = .ok b.data ∧
    IPMulticastAddress.codec.marshal v = .ok (b.data ++ List.replicate 16 0) :=
  ⟨⟨1, none, some (List.replicate 16 9), none, none⟩, ⟨2, some [224, 0, 0, 1], some (List.replicate 16 9), none, none⟩,
    ⟨2, some [224, 0, 0, 1], none, none, none⟩, ⟨[2, 224, 0, 0, 1], []⟩, by decide +kernel, by decide +kernel,
    by decide +kernel, by decide +kernel⟩

/-- The same with a MAC address. -/
theorem C74_MACAddress_violated : ∃ (old v w : MACAddress) (b : Slice), old.into.run b = .ok v ∧
    MACAddress.parseP.run b = .ok w ∧ MACAddress.codec.marshal w = .ok b.data ∧
    MACAddress.codec.marshal v = .ok (b.data ++ List.replicate 6 0) :=
  ⟨⟨2, none, some [9, 9, 9, 9, 9, 9], none, none⟩, ⟨1, some [1, 2, 3, 4, 5, 6], some [9, 9, 9, 9, 9, 9], none, none⟩,
    ⟨1, some [1, 2, 3, 4, 5, 6], none, none, none⟩, ⟨[1, 1, 2, 3, 4, 5, 6], []⟩, by decide +kernel, by decide +kernel,
    by decide +kernel, by decide +kernel⟩

/-- The same with a tag: the stale priority is written. -/
theorem C74_Tag_violated : ∃ (old v w : Tag) (b : Slice), old.into.run b = .ok v ∧ Tag.parseP.run b = .ok w ∧
    Tag.codec.marshal w = .ok b.data ∧ Tag.codec.marshal v = .ok [4, 7, 5] :=
  ⟨⟨1, 7, 0, 0⟩, ⟨4, 7, 0, 5⟩, ⟨4, 0, 0, 5⟩, ⟨[4, 0, 5], []⟩, by decide +kernel, by decide +kernel, by decide +kernel,
    by decide +kernel⟩

/-- The same with an outer header creation whose first octet has the bit of a C-TAG, which the decoder does not read:
the encoder writes the one that was there. -/
theorem C74_OuterHeaderCreation_violated : ∃ (old v w : OuterHeaderCreation) (b : Slice), old.into.run b = .ok v ∧
    OuterHeaderCreation.parseP.run b = .ok w ∧ OuterHeaderCreation.codec.marshal v ≠ OuterHeaderCreation.codec.marshal w :=
  ⟨⟨0, 0, none, none, 0, 0x010203, 0⟩, ⟨0x4000, 0, none, none, 0, 0x010203, 0⟩, ⟨0x4000, 0, none, none, 0, 0, 0⟩,
    ⟨[0x40, 0], []⟩, by decide +kernel, by decide +kernel, by decide +kernel⟩

/-- Decoding twice into the same value collects the addresses of both. -/
theorem C74_MACAddresses_violated : ∃ (v w : MACAddresses) (b : Slice), MACAddresses.parseP.run b = .ok v ∧
    v.into.run b = .ok w ∧ w.macs = v.macs ++ v.macs ∧ v.macs ≠ [] :=
  ⟨⟨0, [[1, 2, 3, 4, 5, 6]], 0, [], 0, []⟩, ⟨0, [[1, 2, 3, 4, 5, 6], [1, 2, 3, 4, 5, 6]], 0, [], 0, []⟩,
    ⟨[0, 1, 2, 3, 4, 5, 6, 0], []⟩, by decide +kernel, by decide +kernel, rfl, by decide⟩

/-- The MAC addresses of PMF address information are kept only in a value that has some: a decode into a new value loses
them, a decode into a used value has those on the wire. -/
theorem C74_PMFAddressInformation_violated : ∃ (old v w : PMFAddressInformation) (b : Slice), old.into.run b = .ok v ∧
    PMFAddressInformation.parseP.run b = .ok w ∧ v.mac1 = some [1, 2, 3, 4, 5, 6] ∧ w.mac1 = none :=
  ⟨⟨0, none, none, 0, 0, some [9, 9, 9, 9, 9, 9], none⟩, ⟨0, none, none, 1, 2, some [1, 2, 3, 4, 5, 6], none⟩,
    ⟨0, none, none, 1, 2, none, none⟩, ⟨[0, 0, 1, 0, 2, 1, 2, 3, 4, 5, 6, 7, 8, 9, 10, 11, 12], []⟩, by decide +kernel,
    by decide +kernel, rfl, rfl⟩

/-- The same with trace information. -/
theorem C74_TraceInformation_violated : ∃ (old v w : TraceInformation) (b : Slice), old.into.run b = .ok v ∧
    TraceInformation.parseP.run b = .ok w ∧ v.events = [5] ∧ w.events = [] :=
  ⟨⟨[], [], [], 0, [9], 0, 0, [], 0, none⟩, ⟨[48, 48, 49], [48, 49], [1, 2, 3], 1, [5], 0, 0, [], 0, none⟩,
    ⟨[48, 48, 49], [48, 49], [1, 2, 3], 1, [], 0, 0, [], 0, none⟩, ⟨[0x00, 0xf1, 0x10, 1, 2, 3, 1, 5, 0, 0, 0], []⟩,
    by decide +kernel, by decide +kernel, rfl, rfl⟩

/-- Not the same outcome: contents that decode into a new value are refused by a value that has held a longer text. -/
theorem C74_PFDContents_violated : ∃ (old w : PFDContents) (b : Slice), PFDContents.parseP.run b = .ok w ∧
    old.into.run b = .err .unexpectedEOF :=
  ⟨⟨1, 100, List.replicate 100 65, 0, [], 0, [], 0, [], 0, [], 0, [], 0, [], 0, []⟩,
    ⟨1, 2, [65, 66], 0, [], 0, [], 0, [], 0, [], 0, [], 0, [], 0, []⟩, ⟨[1, 0, 0, 2, 65, 66], []⟩, by decide +kernel,
    by decide +kernel⟩

/-! ### The hypotheses can be met -/

example : ∃ (old v w : Volume) (b : Slice), old.into.run b = .ok v ∧ Volume.parseP.run b = .ok w ∧ old ≠ v :=
  ⟨⟨1, 7, 0, 0⟩, ⟨2, 7, 5, 0⟩, ⟨2, 0, 5, 0⟩, ⟨[2, 0, 0, 0, 0, 0, 0, 0, 5], []⟩, by decide +kernel, by decide +kernel,
    by decide⟩
example : ∃ (old w : PFDContents) (b : Slice), old.fdLen = 0 ∧ old.urlLen = 0 ∧ old.dnLen = 0 ∧ old.cpLen = 0 ∧
    old.dnpLen = 0 ∧ old.afdLen = 0 ∧ old.aurlLen = 0 ∧ old.adnpLen = 0 ∧ old.afd ≠ [] ∧ PFDContents.parseP.run b = .ok w :=
  ⟨⟨1, 0, [], 0, [], 0, [], 0, [], 0, [], 0, [[65]], 0, [], 0, []⟩,
    ⟨1, 2, [65, 66], 0, [], 0, [], 0, [], 0, [], 0, [], 0, [], 0, []⟩, ⟨[1, 0, 0, 2, 65, 66], []⟩, rfl, rfl, rfl, rfl, rfl,
    rfl, rfl, rfl, by decide, by decide +kernel⟩

end Fields
end Pfcp
