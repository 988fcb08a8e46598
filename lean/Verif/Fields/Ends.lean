/-
Property theorems C43, exactly: for every value of a structured element, whether encoding it succeeds, returns an
error or crashes.
-/
import Verif.Fields.Outcome
import Verif.Text.Exact
import Verif.Fields.Props1
import Verif.Fields.Props2
import Verif.Fields.Props3
import Verif.Fields.Props4
import Verif.Fields.Props5
import Verif.Fields.Props6
import Verif.Fields.Props7

namespace Pfcp
namespace Fields

/-! ### Values that are always encoded -/

/-- C43, exactly: every pair of addresses is encoded, also addresses that are none. -/
theorem C43_IP46_exact (v : IP46) : (IP46.codec.marshal v).ended = .done := by
  show (v.marshalW.marshal v.marshalLen).ended = _
  unfold IP46.marshalW
  outline
  unfold IP46.marshalLen
  cases v.v4.isSome <;> cases v.v6.isSome <;> rfl

/-- C43, exactly: every F-SEID is encoded. -/
theorem C43_FSEID_exact (v : FSEID) : (FSEID.codec.marshal v).ended = .done := by
  show (v.marshalW.marshal v.marshalLen).ended = _
  unfold FSEID.marshalW
  outline
  unfold FSEID.marshalLen
  cases v.v4.isSome <;> cases v.v6.isSome <;> cases FSEID.hasIPv4 v.flags <;> cases FSEID.hasIPv6 v.flags <;>
    rfl

/-- C43, exactly: every F-TEID is encoded. -/
theorem C43_FTEID_exact (v : FTEID) : (FTEID.codec.marshal v).ended = .done := by
  show (v.marshalW.marshal v.marshalLen).ended = _
  unfold FTEID.marshalW
  outline
  unfold FTEID.marshalLen
  cases FTEID.hasCh v.flags <;> cases FTEID.hasChID v.flags <;> cases v.v4.isSome <;> cases v.v6.isSome <;>
    cases FTEID.hasIPv4 v.flags <;> cases FTEID.hasIPv6 v.flags <;> rfl

/-- C43, exactly. -/
theorem C43_MPTCPAddressInformation_exact (v : MPTCPAddressInformation) :
    (MPTCPAddressInformation.codec.marshal v).ended = .done := by
  show (v.marshalW.marshal v.marshalLen).ended = _
  unfold MPTCPAddressInformation.marshalW
  outline
  unfold MPTCPAddressInformation.marshalLen
  cases MPTCPAddressInformation.hasIPv4 v.flags <;> cases MPTCPAddressInformation.hasIPv6 v.flags <;>
    rfl

/-- C43, exactly. -/
theorem C43_UELinkSpecificIPAddress_exact (v : UELinkSpecificIPAddress) :
    (UELinkSpecificIPAddress.codec.marshal v).ended = .done := by
  show (v.marshalW.marshal v.marshalLen).ended = _
  unfold UELinkSpecificIPAddress.marshalW
  outline
  unfold UELinkSpecificIPAddress.marshalLen
  cases UELinkSpecificIPAddress.hasIPv4 v.flags <;> cases UELinkSpecificIPAddress.hasIPv6 v.flags <;>
    cases UELinkSpecificIPAddress.hasNV4 v.flags <;> cases UELinkSpecificIPAddress.hasNV6 v.flags <;>
    rfl

/-- C43, exactly. -/
theorem C43_SourceIPAddress_exact (v : SourceIPAddress) : (SourceIPAddress.codec.marshal v).ended = .done := by
  show (v.marshalW.marshal v.marshalLen).ended = _
  unfold SourceIPAddress.marshalW
  outline
  unfold SourceIPAddress.marshalLen
  cases SourceIPAddress.hasIPv4 v.flags <;> cases SourceIPAddress.hasIPv6 v.flags <;>
    cases SourceIPAddress.hasMPL v.flags <;> rfl

/-- C43, exactly. -/
theorem C43_UEIPAddress_exact (v : UEIPAddress) : (UEIPAddress.codec.marshal v).ended = .done := by
  show (v.marshalW.marshal v.marshalLen).ended = _
  unfold UEIPAddress.marshalW
  outline
  unfold UEIPAddress.marshalLen
  cases UEIPAddress.hasIPv4 v.flags <;> cases UEIPAddress.hasIPv6 v.flags <;> cases has4thBit v.flags <;>
    cases has7thBit v.flags <;> rfl

/-- C43, exactly. -/
theorem C43_Tag_exact (v : Tag) : (Tag.codec.marshal v).ended = .done := by
  show (v.marshalW.marshal v.marshalLen).ended = _
  unfold Tag.marshalW
  outline
  unfold Tag.marshalLen
  outline_flags
  outline_end

/-- C43, exactly. -/
theorem C43_SDFFilter_exact (v : SDFFilter) : (SDFFilter.codec.marshal v).ended = .done := by
  show (v.marshalW.marshal v.marshalLen).ended = _
  unfold SDFFilter.marshalW
  outline
  unfold SDFFilter.marshalLen
  generalize v.fdLength.toNat = a
  cases SDFFilter.hasFD v.flags <;> cases SDFFilter.hasTTC v.flags <;> cases SDFFilter.hasSPI v.flags <;>
    cases SDFFilter.hasFL v.flags <;> cases SDFFilter.hasBID v.flags <;> outline_flags <;> outline_end

/-- C43, exactly. -/
theorem C43_OuterHeaderCreation_exact (v : OuterHeaderCreation) :
    (OuterHeaderCreation.codec.marshal v).ended = .done := by
  show (v.marshalW.marshal v.marshalLen).ended = _
  unfold OuterHeaderCreation.marshalW OuterHeaderCreation.marshalEnd
  outline
  unfold OuterHeaderCreation.marshalLen
  cases OuterHeaderCreation.hasTEID (OuterHeaderCreation.hiOctet v.desc) <;>
    cases OuterHeaderCreation.hasIPv4 (OuterHeaderCreation.hiOctet v.desc) <;>
    cases OuterHeaderCreation.hasIPv6 (OuterHeaderCreation.hiOctet v.desc) <;>
    cases OuterHeaderCreation.hasPort (OuterHeaderCreation.hiOctet v.desc) <;>
    cases OuterHeaderCreation.hasCTag (OuterHeaderCreation.hiOctet v.desc) <;>
    cases OuterHeaderCreation.hasSTag (OuterHeaderCreation.hiOctet v.desc) <;> rfl

/-- C43, exactly. -/
theorem C43_PMFAddressInformation_exact (v : PMFAddressInformation) :
    (PMFAddressInformation.codec.marshal v).ended = .done := by
  show (v.marshalW.marshal v.marshalLen).ended = _
  unfold PMFAddressInformation.marshalW
  outline
  unfold PMFAddressInformation.marshalLen
  cases PMFAddressInformation.hasIPv4 v.flags <;> cases PMFAddressInformation.hasIPv6 v.flags <;> rfl

/-- C43, exactly: once there is a value, it is encoded. -/
theorem C43_RedirectInformation_exact (v : RedirectInformation) :
    (RedirectInformation.codec.marshal v).ended = .done := by
  show (v.marshalW.marshal v.marshalLen).ended = _
  unfold RedirectInformation.marshalW
  outline
  unfold RedirectInformation.marshalLen
  generalize v.len1.toNat = a
  generalize v.len2.toNat = b
  by_cases h : v.addr2 = []
  · simp only [if_pos h]
    outline_flags
    outline_end
  · simp only [if_neg h]
    outline_flags
    outline_end

/-- C43, exactly: the constructor crashes iff it is given no address. -/
theorem C43_RedirectInformation_ctor_exact (typ : UInt8) (addrs : List Bytes) :
    (RedirectInformation.build typ addrs).ended = if addrs = [] then .crash else .done := by
  unfold RedirectInformation.build RedirectInformation.new
  match addrs with
  | [] => rfl
  | [a] => rw [if_neg (by simp)]; exact C43_RedirectInformation_exact _
  | a :: b :: r => rw [if_neg (by simp)]; exact C43_RedirectInformation_exact _

/-- C43, exactly. -/
theorem C43_Volume_exact (v : Volume) : (Volume.codec.marshal v).ended = .done := by
  show (v.marshalW.marshal v.marshalLen).ended = _
  unfold Volume.marshalW
  outline
  unfold Volume.marshalLen
  cases Volume.hasTOVOL v.flags <;> cases Volume.hasULVOL v.flags <;> cases Volume.hasDLVOL v.flags <;>
    rfl

/-- C43, exactly. -/
theorem C43_VolumeMeasurement_exact (v : VolumeMeasurement) : (VolumeMeasurement.codec.marshal v).ended = .done := by
  show (v.marshalW.marshal v.marshalLen).ended = _
  unfold VolumeMeasurement.marshalW
  outline
  unfold VolumeMeasurement.marshalLen
  cases VolumeMeasurement.hasTOVOL v.flags <;> cases VolumeMeasurement.hasULVOL v.flags <;>
    cases VolumeMeasurement.hasDLVOL v.flags <;> cases VolumeMeasurement.hasTONOP v.flags <;>
    cases VolumeMeasurement.hasULNOP v.flags <;> cases VolumeMeasurement.hasDLNOP v.flags <;>
    rfl

/-- C43, exactly. -/
theorem C43_NumberOfUEIPAddresses_exact (v : NumberOfUEIPAddresses) :
    (NumberOfUEIPAddresses.codec.marshal v).ended = .done := by
  show (v.marshalW.marshal v.marshalLen).ended = _
  unfold NumberOfUEIPAddresses.marshalW
  outline
  unfold NumberOfUEIPAddresses.marshalLen
  cases NumberOfUEIPAddresses.hasNumIPv4 v.flags <;> cases NumberOfUEIPAddresses.hasNumIPv6 v.flags <;>
    rfl

/-- C43, exactly. -/
theorem C43_Delays_exact (v : Delays) : (Delays.codec.marshal v).ended = .done := by
  show (v.marshalW.marshal v.marshalLen).ended = _
  unfold Delays.marshalW
  outline
  unfold Delays.marshalLen
  cases Delays.hasDL v.flags <;> cases Delays.hasUL v.flags <;> cases Delays.hasRP v.flags <;>
    rfl

/-- C43, exactly. -/
theorem C43_PacketRateStatus_exact (v : PacketRateStatus) : (PacketRateStatus.codec.marshal v).ended = .done := by
  show (v.marshalW.marshal v.marshalLen).ended = _
  unfold PacketRateStatus.marshalW
  outline
  unfold PacketRateStatus.marshalLen
  cases PacketRateStatus.hasUL v.flags <;> cases PacketRateStatus.hasDL v.flags <;>
    cases PacketRateStatus.hasAPR v.flags <;> rfl

/-! ### Values that are not -/

/-- C43, exactly: nothing announced, an error. -/
theorem C43_DLFlowLevelMarking_exact (v : DLFlowLevelMarking) : (DLFlowLevelMarking.codec.marshal v).ended =
    if bit v.flags 0 = false ∧ bit v.flags 1 = false then .error .unexpectedEOF else .done := by
  show (v.marshalW.marshal v.marshalLen).ended = _
  unfold DLFlowLevelMarking.marshalW
  outline
  unfold DLFlowLevelMarking.marshalLen
  simp only [has1stBit_eq, has2ndBit_eq]
  cases bit v.flags 0 <;> cases bit v.flags 1 <;> outline_flags <;> simp

/-- C43, exactly: nothing announced, an error. -/
theorem C43_PacketRate_exact (v : PacketRate) : (PacketRate.codec.marshal v).ended =
    if bit v.flags 0 = false ∧ bit v.flags 1 = false then .error .unexpectedEOF else .done := by
  show (v.marshalW.marshal v.marshalLen).ended = _
  unfold PacketRate.marshalW
  outline
  unfold PacketRate.marshalLen
  simp only [has1stBit_eq, has2ndBit_eq]
  cases bit v.flags 0 <;> cases bit v.flags 1 <;> outline_flags <;> simp

/-- C43, exactly: the crash is one of a buffer that is too short, because the RTRL flag (bit 5) makes `MarshalLen`
leave out the addresses that `MarshalTo` writes, or because the destination interface is written whatever its length
says. -/
theorem C43_RemoteGTPUPeer_exact (v : RemoteGTPUPeer) : (RemoteGTPUPeer.codec.marshal v).ended =
    if bit v.flags 2 = false ∧ bit v.flags 3 = false ∧ (bit v.flags 4 = true ∨ (bit v.flags 0 = false ∧ bit v.flags 1 = false))
    then .error .unexpectedEOF
    else if (bit v.flags 3 = true ∧ bit v.flags 4 = true ∧ (bit v.flags 0 = true ∨ bit v.flags 1 = true)) ∨
      (bit v.flags 3 = false ∧ bit v.flags 2 = true ∧ v.diLength.toNat ≤
        (if bit v.flags 4 then (if bit v.flags 1 then 4 else 0) + (if bit v.flags 0 then 16 else 0) else 0)) then .crash
    else .done := by
  show (v.marshalW.marshal v.marshalLen).ended = _
  unfold RemoteGTPUPeer.marshalW
  outline
  unfold RemoteGTPUPeer.marshalLen
  generalize v.diLength.toNat = a
  generalize v.niLength.toNat = b
  simp only [has1stBit_eq, has2ndBit_eq, has3rdBit_eq, has4thBit_eq, has5thBit_eq]
  cases bit v.flags 0 <;> cases bit v.flags 1 <;> cases bit v.flags 2 <;> cases bit v.flags 3 <;> cases bit v.flags 4 <;>
    outline_flags <;> simp <;> outline_end

/-- C43, exactly: what the constructor makes of the flags is an error when neither an interface nor an instance is
announced and no address is counted, a crash when addresses are announced together with bit 5 and something else. -/
theorem C43_RemoteGTPUPeer_ctor_exact (flags : UInt8) (v4 v6 : IP) (di : UInt8) (ni : Bytes) :
    (RemoteGTPUPeer.codec.marshal (RemoteGTPUPeer.new flags v4 v6 di ni)).ended =
    if bit flags 2 = false ∧ bit flags 3 = false ∧ (bit flags 4 = true ∨ (bit flags 0 = false ∧ bit flags 1 = false))
    then .error .unexpectedEOF
    else if bit flags 4 = true ∧ (bit flags 0 = true ∨ bit flags 1 = true) then .crash
    else .done := by
  rw [C43_RemoteGTPUPeer_exact]
  unfold RemoteGTPUPeer.new
  simp only [has3rdBit_eq]
  cases bit flags 0 <;> cases bit flags 1 <;> cases bit flags 2 <;> cases bit flags 3 <;> cases bit flags 4 <;> simp

/-- C43, exactly: an error iff the addresses the flags announce take more room than the addresses there are. -/
theorem C43_IPMulticastAddress_exact (v : IPMulticastAddress) : (IPMulticastAddress.codec.marshal v).ended =
    if bit v.flags 3 = false ∧
      (if v.sv4.isSome then 4 else 0) + (if v.sv6.isSome then 16 else 0) + (if v.ev4.isSome then 4 else 0) +
        (if v.ev6.isSome then 16 else 0) <
      (if bit v.flags 2 then 2 else 1) * ((if bit v.flags 1 then 4 else 0) + (if bit v.flags 0 then 16 else 0))
    then .error .unexpectedEOF else .done := by
  show (v.marshalW.marshal v.marshalLen).ended = _
  unfold IPMulticastAddress.marshalW
  outline
  unfold IPMulticastAddress.marshalLen
  simp only [IPMulticastAddress.hasAny, IPMulticastAddress.hasIPv4, IPMulticastAddress.hasIPv6,
    IPMulticastAddress.hasRange, has1stBit_eq, has2ndBit_eq, has3rdBit_eq, has4thBit_eq]
  cases bit v.flags 0 <;> cases bit v.flags 1 <;> cases bit v.flags 2 <;> cases bit v.flags 3 <;>
    cases v.sv4.isSome <;> cases v.sv6.isSome <;> cases v.ev4.isSome <;> cases v.ev6.isSome <;> rfl

/-- C43, exactly: the constructor fails iff there is an IPv6 start and an IPv4 end without an IPv6 end, or both starts
and an IPv6 end alone. -/
theorem C43_IPMulticastAddress_ctor_exact (s4 s6 e4 e6 : IP) :
    (IPMulticastAddress.codec.marshal (IPMulticastAddress.new s4 s6 e4 e6)).ended =
    if s6.isSome = true ∧ ((e4.isSome = true ∧ e6.isSome = false) ∨
      (s4.isSome = true ∧ e4.isSome = false ∧ e6.isSome = true))
    then .error .unexpectedEOF else .done := by
  rw [C43_IPMulticastAddress_exact]
  unfold IPMulticastAddress.new
  cases s4 <;> cases s6 <;> cases e4 <;> cases e6 <;> simp <;> decide

/-- C43, exactly: an error iff nothing follows the flags. -/
theorem C43_UserPlaneIPResourceInformation_exact (v : UserPlaneIPResourceInformation) :
    (UserPlaneIPResourceInformation.codec.marshal v).ended =
    if UserPlaneIPResourceInformation.hasTEIDRI v.flags = false ∧ bit v.flags 0 = false ∧ bit v.flags 1 = false ∧
      (bit v.flags 5 = false ∨ v.ni.length = 0) ∧ bit v.flags 6 = false then .error .unexpectedEOF else .done := by
  show (v.marshalW.marshal v.marshalLen).ended = _
  unfold UserPlaneIPResourceInformation.marshalW
  outline
  unfold UserPlaneIPResourceInformation.marshalLen
  generalize v.ni.length = a
  simp only [has1stBit_eq, has2ndBit_eq, has6thBit_eq, has7thBit_eq]
  cases UserPlaneIPResourceInformation.hasTEIDRI v.flags <;> cases bit v.flags 0 <;> cases bit v.flags 1 <;>
    cases bit v.flags 5 <;> cases bit v.flags 6 <;> outline_flags <;> simp <;> outline_end

/-- C43, exactly: a crash iff the lengths say more than there is in name and value together. -/
theorem C43_HeaderEnrichment_exact (v : HeaderEnrichment) : (HeaderEnrichment.codec.marshal v).ended =
    if v.name.length + v.value.length < v.nameLength.toNat + v.valueLength.toNat then .crash else .done := by
  show (v.marshalW.marshal v.marshalLen).ended = _
  unfold HeaderEnrichment.marshalW
  outline
  unfold HeaderEnrichment.marshalLen
  generalize v.name.length = a
  generalize v.value.length = b
  generalize v.nameLength.toNat = c
  generalize v.valueLength.toNat = d
  outline_flags
  outline_end

theorem shape_mac (c : Bool) (m : Option Bytes) : W.Shape (W.mac c m) (fun l o =>
    if c then (if l < o + 6 then .err .unexpectedEOF else if (m.getD []).length < 6 then .panic else .ok (o + 6)) else .ok o) := by
  unfold W.mac
  intro d o
  have h : W.Shape (W.opt c (W.need 6 ;; if (m.getD []).length < 6 then W.boom else W.copy 6 ((m.getD []).take 6))) _ :=
    W.Shape.opt c ((W.Shape.need 6).seq (W.Shape.ite W.Shape.boom (W.Shape.copy 6 _)))
  have := h d o
  revert this
  simp only
  cases c
  · exact id
  · simp only [if_true]
    by_cases hl : d.length < o + 6
    · simp only [if_pos hl]; exact id
    · simp only [if_neg hl, Res.ok_bind]
      rw [show (if o + 6 ≤ d.length then Res.ok (o + 6) else .panic) = Res.ok (o + 6) from if_pos (by omega)]
      exact id

/-- The addresses that are announced, one after the other, from the `i`-th on, with room for `g`. -/
def macsEnd (g : Nat) : List (Option Bytes) → Nat → End
  | [], _ => .done
  | m :: r, i => if g ≤ i then .error .unexpectedEOF else if (m.getD []).length < 6 then .crash else macsEnd g r (i + 1)

theorem macsEnd_eq (g : Nat) : ∀ (ms : List (Option Bytes)) (i : Nat), i ≤ g → macsEnd g ms i =
    if (ms.take (g - i)).any (fun m => (m.getD []).length < 6) then .crash
    else if g < i + ms.length then .error .unexpectedEOF else .done
  | [], i, h => by
    rw [List.take_nil]
    simp only [macsEnd, List.any_nil, Bool.false_eq_true, if_false, List.length_nil, Nat.add_zero]
    rw [if_neg (by omega)]
  | m :: r, i, h => by
    unfold macsEnd
    by_cases hi : g ≤ i
    · rw [if_pos hi, show g - i = 0 by omega]
      simp only [List.take_zero, List.any_nil, Bool.false_eq_true, if_false, List.length_cons]
      rw [if_pos (by omega)]
    · rw [if_neg hi, show g - i = (g - (i + 1)) + 1 by omega, List.take_succ_cons, List.any_cons, List.length_cons,
        macsEnd_eq g r (i + 1) (by omega), show i + 1 + r.length = i + (r.length + 1) by omega]
      by_cases hm : (m.getD []).length < 6
      · simp [hm]
      · simp [hm]

theorem macsEnd_cons {c : Bool} {g i : Nat} {m : Option Bytes} {r : List (Option Bytes)} {f : Nat → Res Nat}
    (h : ∀ i, (f (1 + 6 * i)).ended = macsEnd g r i) :
    ((if c then (if 1 + 6 * g < 1 + 6 * i + 6 then .err .unexpectedEOF else if (m.getD []).length < 6 then .panic
      else .ok (1 + 6 * i + 6)) else .ok (1 + 6 * i) : Res Nat) >>= f).ended =
    macsEnd g ((if c then [m] else []) ++ r) i := by
  cases c
  · exact h i
  · simp only [if_true, List.cons_append, List.nil_append, macsEnd]
    by_cases hg : g ≤ i
    · rw [if_pos hg, if_pos (by omega)]; rfl
    · rw [if_neg hg, if_neg (by omega)]
      by_cases hm : (m.getD []).length < 6
      · rw [if_pos hm, if_pos hm]; rfl
      · rw [if_neg hm, if_neg hm, Res.ok_bind, show 1 + 6 * i + 6 = 1 + 6 * (i + 1) by omega]
        exact h (i + 1)

theorem marshalLen_mac (v : MACAddress) : v.marshalLen = 1 + 6 * ((if v.src.isSome then 1 else 0) +
    (if v.dst.isSome then 1 else 0) + (if v.usrc.isSome then 1 else 0) + (if v.udst.isSome then 1 else 0)) := by
  unfold MACAddress.marshalLen
  cases v.src.isSome <;> cases v.dst.isSome <;> cases v.usrc.isSome <;> cases v.udst.isSome <;> rfl

/-- C43, exactly: there is room for as many addresses as are given. Of the announced ones, the first that many are
written, and one of fewer than six octets is a crash; if more are announced than given, the next is an error. -/
theorem C43_MACAddress_exact (v : MACAddress) : (MACAddress.codec.marshal v).ended =
    let announced := (if bit v.flags 0 then [v.src] else []) ++ (if bit v.flags 1 then [v.dst] else []) ++
      (if bit v.flags 2 then [v.usrc] else []) ++ (if bit v.flags 3 then [v.udst] else [])
    let given := (if v.src.isSome then 1 else 0) + (if v.dst.isSome then 1 else 0) + (if v.usrc.isSome then 1 else 0) +
      (if v.udst.isSome then 1 else 0)
    if (announced.take given).any (fun m => (m.getD []).length < 6) then .crash
    else if given < announced.length then .error .unexpectedEOF else .done := by
  show (v.marshalW.marshal v.marshalLen).ended = _
  unfold MACAddress.marshalW
  apply W.Shape.ends
  · exact (W.Shape.minLen _).seq ((W.Shape.u8 _).seq ((shape_mac _ _).seq ((shape_mac _ _).seq ((shape_mac _ _).seq
      (shape_mac _ _)))))
  rw [marshalLen_mac]
  simp only [MACAddress.hasSOUR, MACAddress.hasDEST, MACAddress.hasUSOU, MACAddress.hasUDES, has1stBit_eq, has2ndBit_eq,
    has3rdBit_eq, has4thBit_eq]
  generalize hg : (if v.src.isSome then 1 else 0) + (if v.dst.isSome then 1 else 0) + (if v.usrc.isSome then 1 else 0) +
      (if v.udst.isSome then 1 else 0) = g
  rw [if_neg (by omega), Res.ok_bind, if_pos (by omega), Res.ok_bind]
  have e := macsEnd_eq g ((if bit v.flags 0 then [v.src] else []) ++ ((if bit v.flags 1 then [v.dst] else []) ++
      ((if bit v.flags 2 then [v.usrc] else []) ++ ((if bit v.flags 3 then [v.udst] else []) ++ [])))) 0 (Nat.zero_le _)
  simp only [Nat.sub_zero, Nat.zero_add, List.append_nil] at e
  simp only [List.append_assoc]
  rw [← e]
  rw [show 0 + 1 = 1 + 6 * 0 from rfl]
  apply macsEnd_cons
  intro i
  apply macsEnd_cons
  intro i
  apply macsEnd_cons
  intro i
  have := macsEnd_cons (c := bit v.flags 3) (g := g) (i := i) (m := v.udst) (r := []) (f := .ok) (fun i => rfl)
  rw [List.append_nil] at this
  rw [← this]
  generalize (if bit v.flags 3 = true then _ else _ : Res Nat) = x
  cases x <;> rfl

/-- C43, exactly: the constructor crashes iff one of the addresses given has fewer than six octets. -/
theorem C43_MACAddress_ctor_exact (a b c d : Option Bytes) :
    (MACAddress.codec.marshal (MACAddress.new a b c d)).ended =
    if ∃ m ∈ [a, b, c, d].filterMap id, m.length < 6 then .crash else .done := by
  rw [C43_MACAddress_exact]
  have hb : bit (MACAddress.new a b c d).flags 0 = a.isSome ∧ bit (MACAddress.new a b c d).flags 1 = b.isSome ∧
      bit (MACAddress.new a b c d).flags 2 = c.isSome ∧ bit (MACAddress.new a b c d).flags 3 = d.isSome := by
    unfold MACAddress.new
    simp only
    cases a.isSome <;> cases b.isSome <;> cases c.isSome <;> cases d.isSome <;> decide
  have hv : (MACAddress.new a b c d).src = a ∧ (MACAddress.new a b c d).dst = b ∧ (MACAddress.new a b c d).usrc = c ∧
      (MACAddress.new a b c d).udst = d := ⟨rfl, rfl, rfl, rfl⟩
  rw [hb.1, hb.2.1, hb.2.2.1, hb.2.2.2, hv.1, hv.2.1, hv.2.2.1, hv.2.2.2]
  cases a <;> cases b <;> cases c <;> cases d <;> simp

theorem shape_digits (n : UInt8) (s : Bytes) : W.Shape (UserID.digitsW n s) (fun l o =>
    if o < l then (Text.strToSwappedBytes s [102] >>= fun _ => if o + 1 + n.toNat ≤ l then .ok (o + 1 + n.toNat) else .panic)
    else .panic) := by
  unfold UserID.digitsW
  intro d o
  have h := (W.Shape.u8 n).seq (W.Shape.after (x := Text.strToSwappedBytes s Text.fillerF) (w := fun v => W.copy n.toNat v)
    (f := fun _ l o => if o + n.toNat ≤ l then .ok (o + n.toNat) else .panic) (fun v => W.Shape.copy n.toNat v)) d o
  revert h
  simp only [Res.ite_bind, Res.ok_bind, Res.panic_bind]
  exact id

/-- One number: an error, or room for it. -/
theorem digits_step {c : Bool} {s : Bytes} {l o n : Nat} {f : Nat → Res Nat} {e : End}
    (hl : o + (if c then 1 + n else 0) ≤ l)
    (hf : ¬ (c = true ∧ ∃ x ∈ s, ¬ Text.IsHex x) → (f (o + if c then 1 + n else 0)).ended = e)
    (he : (c = true ∧ ∃ x ∈ s, ¬ Text.IsHex x) → e = .error .hexDecode) :
    ((if c then (if o < l then (Text.strToSwappedBytes s [102] >>= fun _ =>
        if o + 1 + n ≤ l then .ok (o + 1 + n) else .panic) else .panic) else .ok o : Res Nat) >>= f).ended = e := by
  cases c
  · exact hf (fun h => by cases h.1)
  · simp only [if_true, true_and] at hl hf he ⊢
    rw [if_pos (by omega)]
    by_cases h : ∃ x ∈ s, ¬ Text.IsHex x
    · rw [Text.C31_refuses s 102 h, he h]; rfl
    · obtain ⟨b, hb⟩ := (Text.C31_ends s).1.2 (by
        intro c hc
        exact Classical.byContradiction fun hx => h ⟨c, hc, hx⟩)
      rw [hb, Res.ok_bind, if_pos (by omega), Res.ok_bind, show o + 1 + n = o + (1 + n) by omega]
      exact hf h

/-- C43, exactly: an error iff one of the announced numbers is no string of hexadecimal digits. -/
theorem C43_UserID_exact (v : UserID) : (UserID.codec.marshal v).ended =
    if (bit v.flags 0 = true ∧ ∃ c ∈ v.imsi, ¬ Text.IsHex c) ∨ (bit v.flags 1 = true ∧ ∃ c ∈ v.imei, ¬ Text.IsHex c) ∨
      (bit v.flags 2 = true ∧ ∃ c ∈ v.msisdn, ¬ Text.IsHex c) then .error .hexDecode else .done := by
  show (v.marshalW.marshal v.marshalLen).ended = _
  unfold UserID.marshalW
  apply W.Shape.ends
  · exact (W.Shape.minLen _).seq ((W.Shape.u8 _).seq ((W.Shape.opt _ (shape_digits _ _)).seq
      ((W.Shape.opt _ (shape_digits _ _)).seq ((W.Shape.opt _ (shape_digits _ _)).seq
      (W.Shape.opt _ ((W.Shape.u8 _).seq (W.Shape.copy _ _)))))))
  unfold UserID.marshalLen
  simp only [has1stBit_eq, has2ndBit_eq, has3rdBit_eq, has4thBit_eq]
  have hm : ∀ (c : Bool) (l n : Nat), (if c then l + n else l) = l + if c then n else 0 := by
    intro c l n; cases c <;> rfl
  simp only [hm]
  generalize h1 : (if bit v.flags 0 then 1 + v.imsiLen.toNat else 0) = k1
  generalize h2 : (if bit v.flags 1 then 1 + v.imeiLen.toNat else 0) = k2
  generalize h3 : (if bit v.flags 2 then 1 + v.msisdnLen.toNat else 0) = k3
  generalize h4 : (if bit v.flags 3 then 1 + v.naiLen.toNat else 0) = k4
  rw [if_neg (by omega), Res.ok_bind, if_pos (by omega), Res.ok_bind]
  refine digits_step (by rw [h1]; omega) (fun n1 => ?_) (fun h => if_pos (Or.inl h))
  rw [h1]
  refine digits_step (by rw [h2]; omega) (fun n2 => ?_) (fun h => if_pos (Or.inr (Or.inl h)))
  rw [h2]
  refine digits_step (by rw [h3]; omega) (fun n3 => ?_) (fun h => if_pos (Or.inr (Or.inr h)))
  rw [h3]
  refine Eq.trans ?_ (if_neg (by
    rintro (h | h | h)
    · exact n1 h
    · exact n2 h
    · exact n3 h)).symm
  clear h1 h2 h3 n1 n2 n3
  revert h4
  generalize v.naiLen.toNat = n
  cases bit v.flags 3
  · intro _; rfl
  · simp only [if_true]
    intro h4
    outline_flags
    outline_end

/-- C43, exactly: the constructor crashes iff one of the announced numbers is no string of hexadecimal digits. -/
theorem C43_UserID_ctor_exact (flags : UInt8) (imsi imei msisdn nai : Bytes) :
    (UserID.build flags imsi imei msisdn nai).ended =
    if (bit flags 0 = true ∧ ∃ c ∈ imsi, ¬ Text.IsHex c) ∨ (bit flags 1 = true ∧ ∃ c ∈ imei, ¬ Text.IsHex c) ∨
      (bit flags 2 = true ∧ ∃ c ∈ msisdn, ¬ Text.IsHex c) then .crash else .done := by
  have key : ∀ (c : Bool) (s : Bytes), ((c = true ∧ ∃ x ∈ s, ¬ Text.IsHex x) ∧ UserID.newDigits c s = none) ∨
      (¬ (c = true ∧ ∃ x ∈ s, ¬ Text.IsHex x) ∧ ∃ n t, UserID.newDigits c s = some (n, t) ∧ (c = true → t = s)) := by
    intro c s
    unfold UserID.newDigits
    cases c
    · exact Or.inr ⟨fun h => (by cases h.1), 0, [], rfl, fun h => by cases h⟩
    · simp only [if_true, true_and, forall_const]
      rw [show Text.fillerF = [102] from rfl]
      by_cases h : ∃ x ∈ s, ¬ Text.IsHex x
      · rw [Text.C31_refuses s 102 h]
        exact Or.inl ⟨h, rfl⟩
      · obtain ⟨b, hb⟩ := (Text.C31_ends s).1.2 (by
          intro c hc
          exact Classical.byContradiction fun hx => h ⟨c, hc, hx⟩)
        rw [hb]
        exact Or.inr ⟨h, _, _, rfl, rfl⟩
  unfold UserID.build UserID.new
  simp only [has1stBit_eq, has2ndBit_eq, has3rdBit_eq]
  rcases key (bit flags 0) imsi with ⟨h1, e1⟩ | ⟨h1, n1, t1, e1, k1⟩
  · rw [e1, if_pos (Or.inl h1)]; rfl
  rcases key (bit flags 1) imei with ⟨h2, e2⟩ | ⟨h2, n2, t2, e2, k2⟩
  · rw [e1, e2, if_pos (Or.inr (Or.inl h2))]; rfl
  rcases key (bit flags 2) msisdn with ⟨h3, e3⟩ | ⟨h3, n3, t3, e3, k3⟩
  · rw [e1, e2, e3, if_pos (Or.inr (Or.inr h3))]; rfl
  refine Eq.trans ?_ (if_neg (by
    rintro (h | h | h)
    · exact h1 h
    · exact h2 h
    · exact h3 h)).symm
  rw [e1, e2, e3]
  show (UserID.codec.marshal _).ended = _
  rw [C43_UserID_exact]
  apply if_neg
  rintro (⟨hb, h⟩ | ⟨hb, h⟩ | ⟨hb, h⟩)
  · exact h1 ⟨hb, by rw [← k1 hb]; exact h⟩
  · exact h2 ⟨hb, by rw [← k2 hb]; exact h⟩
  · exact h3 ⟨hb, by rw [← k3 hb]; exact h⟩

/-- C43, exactly: encoding fails the way `EncodePLMN` fails, and in no other. -/
theorem C43_TraceInformation_exact (v : TraceInformation) : (TraceInformation.codec.marshal v).ended =
    if ∃ c ∈ v.mcc ++ v.mnc, ¬ Text.IsHex c then .error .hexDecode
    else if v.mnc.length ≠ 2 ∧ (v.mcc.length < 3 ∨ v.mnc.length < 3) then .crash else .done := by
  show (v.marshalW.marshal v.marshalLen).ended = _
  unfold TraceInformation.marshalW TraceInformation.plmnW
  have hs : (Text.encodePLMN v.mcc v.mnc).ended = if ∃ c ∈ v.mcc ++ v.mnc, ¬ Text.IsHex c then .error .hexDecode
      else if v.mnc.length ≠ 2 ∧ (v.mcc.length < 3 ∨ v.mnc.length < 3) then .crash else .done := by
    obtain ⟨h1, h2, h3⟩ := Text.C32_ends v.mcc v.mnc
    by_cases hx : ∃ c ∈ v.mcc ++ v.mnc, ¬ Text.IsHex c
    · rw [if_pos hx]
      obtain ⟨c, hc, hn⟩ := hx
      rw [h1.2 ⟨c, List.mem_append.1 hc, hn⟩]
      rfl
    · have ha : ∀ c, c ∈ v.mcc ∨ c ∈ v.mnc → Text.IsHex c := fun c hc =>
        Classical.byContradiction fun hn => hx ⟨c, List.mem_append.2 hc, hn⟩
      rw [if_neg hx]
      by_cases hp : v.mnc.length ≠ 2 ∧ (v.mcc.length < 3 ∨ v.mnc.length < 3)
      · rw [if_pos hp, h2.2 ⟨ha, hp⟩]; rfl
      · rw [if_neg hp]
        obtain ⟨b, hb⟩ := h3.2 ⟨ha, by omega⟩
        rw [hb]; rfl
  rw [← hs]
  apply W.Shape.ends
  · exact (W.Shape.minLen _).seq ((W.Shape.after (w := fun v => W.copy 3 v) (fun v => W.Shape.copy 3 v)).seq (by repeat shape_step))
  unfold TraceInformation.marshalLen
  generalize v.eventsLen.toNat = n1
  generalize v.ifsLen.toNat = n2
  generalize v.ipLen.toNat = n3
  cases Text.encodePLMN v.mcc v.mnc <;> outline_flags
  · repeat first | rw [if_neg (by omega)] | rw [if_pos (by omega)]
  · exact if_neg (by omega)
  · exact if_neg (by omega)

theorem shape_macs : ∀ l : List Bytes, W.Shape (MACAddresses.macsW l)
    (fun n o => if l = [] then .ok o else if o + 6 * l.length ≤ n then .ok (o + 6 * l.length) else .panic)
  | [] => W.Shape.nop
  | m :: r => by
    have h := (W.Shape.copy 6 m).seq (shape_macs r)
    intro d o
    have := h d o
    revert this
    simp only [reduceCtorEq, if_false, List.length_cons]
    show W.Sh _ ((W.copy 6 m ;; MACAddresses.macsW r) _ _) _ → W.Sh _ ((W.copy 6 m ;; MACAddresses.macsW r) _ _) _
    generalize (W.copy 6 m ;; MACAddresses.macsW r) ⟨d, []⟩ o = x
    have hr : r = [] ↔ r.length = 0 := by simp
    by_cases h1 : o + 6 * (r.length + 1) ≤ d.length
    · rw [if_pos h1, if_pos (by omega), Res.ok_bind]
      by_cases h2 : r = []
      · rw [if_pos h2, show o + 6 * (r.length + 1) = o + 6 by rw [hr.1 h2]]; exact id
      · rw [if_neg h2, if_pos (by omega), show o + 6 * (r.length + 1) = o + 6 + 6 * r.length by omega]; exact id
    · rw [if_neg h1]
      by_cases h3 : o + 6 ≤ d.length
      · rw [if_pos h3, Res.ok_bind, if_neg (by rw [hr]; omega), if_neg (by omega)]; exact id
      · rw [if_neg h3]; exact id

/-- C43, exactly: a crash iff there are more addresses than their number says. -/
theorem C43_MACAddresses_exact (v : MACAddresses) : (MACAddresses.codec.marshal v).ended =
    if v.n.toNat < v.macs.length then .crash else .done := by
  show (v.marshalW.marshal v.marshalLen).ended = _
  unfold MACAddresses.marshalW
  apply W.Shape.ends
  · exact (W.Shape.minLen _).seq ((W.Shape.u8 _).seq ((shape_macs _).seq (by repeat shape_step)))
  unfold MACAddresses.marshalLen
  generalize v.n.toNat = n
  generalize v.ctagLen.toNat = n1
  generalize v.stagLen.toNat = n2
  by_cases h : v.macs = []
  · simp only [h, List.length_nil]
    outline_flags
    outline_end
  · simp only [h]
    outline_flags
    have : v.macs.length ≠ 0 := by simpa using h
    generalize v.macs.length = k at this
    outline_end

/-- Every end occurs. -/
example : (IPMulticastAddress.codec.marshal (IPMulticastAddress.new none (some []) (some []) none)).ended
      = .error .unexpectedEOF ∧
    (MACAddress.codec.marshal (MACAddress.new (some [1, 2, 3, 4, 5]) none none none)).ended = .crash ∧
    (MACAddress.codec.marshal (MACAddress.new (some [1, 2, 3, 4, 5, 6]) none none none)).ended = .done ∧
    (UserID.build 1 [120] [] [] []).ended = .crash ∧ (UserID.build 0 [120] [] [] []).ended = .done := by
  refine ⟨?_, ?_, ?_, ?_, ?_⟩
  · rw [C43_IPMulticastAddress_ctor_exact]; rfl
  · rw [C43_MACAddress_ctor_exact]; rfl
  · rw [C43_MACAddress_ctor_exact]; rfl
  · rw [C43_UserID_ctor_exact]; decide
  · rw [C43_UserID_ctor_exact]; decide

end Fields
end Pfcp
