/- Property C83: which structured values, made by their constructors, come back from the bytes unchanged. C80 says it of
every value of the Go structure; here the conditions are on the arguments of the constructor `NewXxxFields`. `bit` numbers
bits from 0. -/
import Verif.Fields.Keep6
import Verif.Text.Exact

namespace Pfcp
namespace Fields

open Text

/-- A nil slice or one of `n` octets. -/
def Sized (n : Nat) (a : Option Bytes) : Prop := ∀ x, a = some x → x.length = n

/-- An IPv4 address as `net.IP` holds it: 4 octets, or 16 with the IPv4 prefix. -/
def HoldsV4 (a : IP) : Prop := ∃ x, a = some x ∧ (x.length = 4 ∨ x.length = 16 ∧ x.take 12 = v4Prefix)

/-- An address as `net.IP` holds it. -/
def HoldsAny (a : IP) : Prop := ∃ x, a = some x ∧ (x.length = 4 ∨ x.length = 16)

theorem announced_sized {n : Nat} {a : Option Bytes} : Announced a.isSome n a ↔ Sized n a := by
  cases a <;> simp [Announced, Sized]

theorem announced_conv4 {c : Bool} {a : IP} : Announced c 4 (if c then a.conv4 else none) ↔ (c = true → HoldsV4 a) := by
  cases c
  · simp [Announced]
  · simp only [Announced, if_true, true_implies, HoldsV4]
    cases a with
    | none => simp [IP.conv4]
    | some x =>
      unfold IP.conv4 to4
      simp only [Option.some.injEq, exists_eq_left']
      by_cases h4 : x.length = 4
      · rw [if_pos h4, if_neg (by cases x <;> simp at h4 ⊢)]
        simp [h4]
      · by_cases h16 : x.length = 16 ∧ x.take 12 = v4Prefix
        · have hd : (x.drop 12).length = 4 := by rw [List.length_drop]; omega
          rw [if_neg h4, if_pos h16, if_neg (by intro h; rw [List.isEmpty_iff.1 h] at hd; cases hd)]
          exact ⟨fun _ => Or.inr h16, fun _ => ⟨_, rfl, hd⟩⟩
        · rw [if_neg h4, if_neg h16]
          simp [h4, h16]

theorem announced_conv16 {c : Bool} {a : IP} :
    Announced c 16 (if c then a.conv16 else none) ↔ (c = true → HoldsAny a) := by
  cases c
  · simp [Announced]
  · simp only [Announced, if_true, true_implies, HoldsAny]
    cases a with
    | none => simp [IP.conv16]
    | some x =>
      unfold IP.conv16 to16
      simp only [Option.some.injEq, exists_eq_left']
      by_cases h4 : x.length = 4
      · rw [if_pos h4, if_neg (by simp [v4Prefix])]
        simp [h4, v4Prefix]
      · by_cases h16 : x.length = 16
        · rw [if_neg h4, if_pos h16, if_neg (by cases x <;> simp at h16 ⊢)]
          simp [h16]
        · rw [if_neg h4, if_neg h16]
          simp [h4, h16]

/-! ### Volumes and counters -/

/-- C83. Something must be announced; what is not announced is not stored. -/
theorem C83_Volume (f : UInt8) (t u d : UInt64) : Volume.codec.Keeps (Volume.new f t u d) ↔
    bit f 0 = true ∨ bit f 1 = true ∨ bit f 2 = true := by
  rw [C80_Volume]
  simp only [Volume.new, Volume.hasTOVOL, Volume.hasULVOL, Volume.hasDLVOL, has1stBit_eq, has2ndBit_eq, has3rdBit_eq]
  cases bit f 0 <;> cases bit f 1 <;> cases bit f 2 <;> simp

theorem C83_VolumeMeasurement (f : UInt8) (t u d tp up dp : UInt64) :
    VolumeMeasurement.codec.Keeps (VolumeMeasurement.new f t u d tp up dp) ↔ ∃ i, i < 6 ∧ bit f i = true := by
  rw [C80_VolumeMeasurement]
  simp only [VolumeMeasurement.new, VolumeMeasurement.hasTOVOL, VolumeMeasurement.hasULVOL, VolumeMeasurement.hasDLVOL,
    VolumeMeasurement.hasTONOP, VolumeMeasurement.hasULNOP, VolumeMeasurement.hasDLNOP, has1stBit_eq, has2ndBit_eq,
    has3rdBit_eq, has4thBit_eq, has5thBit_eq, has6thBit_eq]
  refine and_iff_left ⟨?_, ?_, ?_, ?_, ?_, ?_⟩ <;> (intro h; rw [h]; rfl)

/-- C83. The arguments are stored whether announced or not, so that those not announced must be 0. -/
theorem C83_NumberOfUEIPAddresses (f : UInt8) (a b : UInt32) :
    NumberOfUEIPAddresses.codec.Keeps (NumberOfUEIPAddresses.new f a b) ↔
    (bit f 0 = false → a = 0) ∧ (bit f 1 = false → b = 0) := C80_NumberOfUEIPAddresses _

theorem C83_Delays (f : UInt8) (dl ul rp : UInt32) : Delays.codec.Keeps (Delays.new f dl ul rp) ↔
    (bit f 0 = false → dl = 0) ∧ (bit f 1 = false → ul = 0) ∧ (bit f 2 = false → rp = 0) := C80_Delays _

theorem C83_DLFlowLevelMarking (f : UInt8) (a b : UInt16) :
    DLFlowLevelMarking.codec.Keeps (DLFlowLevelMarking.new f a b) ↔ bit f 0 = true ∨ bit f 1 = true := by
  rw [C80_DLFlowLevelMarking]
  simp only [DLFlowLevelMarking.new, has1stBit_eq, has2ndBit_eq]
  cases bit f 0 <;> cases bit f 1 <;> simp

theorem C83_PacketRate (f a : UInt8) (b : UInt16) (c : UInt8) (d : UInt16) :
    PacketRate.codec.Keeps (PacketRate.new f a b c d) ↔ bit f 0 = true ∨ bit f 1 = true := by
  rw [C80_PacketRate]
  simp only [PacketRate.new, has1stBit_eq, has2ndBit_eq]
  cases bit f 0 <;> cases bit f 1 <;> simp

/-- C83. Only the validity time may be lost. -/
theorem C83_PacketRateStatus (f : UInt8) (a b c d : UInt16) (t : Time) :
    PacketRateStatus.codec.Keeps (PacketRateStatus.new f a b c d t) ↔
    ∃ s : Int, -2208988800 ≤ s ∧ s ≤ 7014383236 ∧ t = unix s := by
  rw [C80_PacketRateStatus]
  simp only [PacketRateStatus.new, PacketRateStatus.hasUL, PacketRateStatus.hasDL, PacketRateStatus.hasAPR,
    has1stBit_eq, has2ndBit_eq, has3rdBit_eq]
  cases bit f 0 <;> cases bit f 1 <;> cases bit f 2 <;> simp

example : Volume.codec.Keeps (Volume.new 5 7 8 9) := (C83_Volume _ _ _ _).2 (by decide)
example : ¬ Volume.codec.Keeps (Volume.new 0 7 8 9) := fun h => absurd ((C83_Volume _ _ _ _).1 h) (by decide)
example : ¬ Delays.codec.Keeps (Delays.new 1 7 8 0) := fun h => absurd ((C83_Delays _ _ _ _).1 h) (by decide)

/-! ### Addresses -/

/-- C83. At least one address; an IPv4 address of exactly 4 and an IPv6 address of 16 octets. -/
theorem C83_IP46 (v4 v6 : IP) : IP46.codec.Keeps (IP46.new v4 v6) ↔
    (v4 ≠ none ∨ v6 ≠ none) ∧ Sized 4 v4 ∧ Sized 16 v6 := by
  rw [C80_IP46, ← announced_sized, ← announced_sized]
  cases v4 <;> cases v6 <;> simp [IP46.new, bit, Nat.testBit]

theorem C83_FSEID (seid : UInt64) (v4 v6 : IP) : FSEID.codec.Keeps (FSEID.new seid v4 v6) ↔
    Sized 4 v4 ∧ Sized 16 v6 := by
  rw [C80_FSEID, ← announced_sized, ← announced_sized]
  cases v4 <;> cases v6 <;> simp [FSEID.new, bit, Nat.testBit]

theorem C83_MPTCPAddressInformation (t : UInt8) (p : UInt16) (v4 v6 : IP) :
    MPTCPAddressInformation.codec.Keeps (MPTCPAddressInformation.new t p v4 v6) ↔ Sized 4 v4 ∧ Sized 16 v6 := by
  rw [C80_MPTCPAddressInformation, ← announced_sized, ← announced_sized]
  cases v4 <;> cases v6 <;> simp [MPTCPAddressInformation.new, bit, Nat.testBit]

theorem C83_UELinkSpecificIPAddress (a b c d : IP) :
    UELinkSpecificIPAddress.codec.Keeps (UELinkSpecificIPAddress.new a b c d) ↔
    Sized 4 a ∧ Sized 16 b ∧ Sized 4 c ∧ Sized 16 d := by
  rw [C80_UELinkSpecificIPAddress, ← announced_sized, ← announced_sized, ← announced_sized, ← announced_sized]
  cases a <;> cases b <;> cases c <;> cases d <;> simp [UELinkSpecificIPAddress.new, bit, Nat.testBit]

theorem C83_SourceIPAddress (v4 v6 : IP) (mpl : UInt8) :
    SourceIPAddress.codec.Keeps (SourceIPAddress.new v4 v6 mpl) ↔
    (v4 ≠ none ∨ v6 ≠ none ∨ mpl ≠ 0) ∧ Sized 4 v4 ∧ Sized 16 v6 := by
  rw [C80_SourceIPAddress, ← announced_sized, ← announced_sized]
  by_cases h : mpl = 0 <;> cases v4 <;> cases v6 <;> simp [SourceIPAddress.new, bit, Nat.testBit, h]

/-- C83. What the flags do not announce must be absent, since it is stored but not written. -/
theorem C83_FTEID (f : UInt8) (teid : UInt32) (v4 v6 : IP) (chid : UInt8) :
    FTEID.codec.Keeps (FTEID.new f teid v4 v6 chid) ↔
    if bit f 2 then teid = 0 ∧ v4 = none ∧ v6 = none ∧ (bit f 3 = false → chid = 0)
    else Announced (bit f 0) 4 v4 ∧ Announced (bit f 1) 16 v6 ∧ chid = 0 := C80_FTEID _

/-- C83. An announced address must be there; with both octets announced, they must be equal. -/
theorem C83_UEIPAddress (f : UInt8) (v4 v6 : IP) (d p : UInt8) :
    UEIPAddress.codec.Keeps (UEIPAddress.new f v4 v6 d p) ↔
    (bit f 1 = true → bit f 4 = false → HoldsV4 v4) ∧ (bit f 0 = true → bit f 5 = false → HoldsAny v6) ∧
    (bit f 3 = true → bit f 6 = true → p = d) := by
  rw [C80_UEIPAddress]
  simp only [UEIPAddress.new, UEIPAddress.hasIPv4, UEIPAddress.hasIPv6, has1stBit_eq, has2ndBit_eq, has4thBit_eq,
    has5thBit_eq, has6thBit_eq, has7thBit_eq]
  rw [announced_conv4, announced_conv16]
  cases bit f 0 <;> cases bit f 1 <;> cases bit f 3 <;> cases bit f 4 <;> cases bit f 5 <;> cases bit f 6 <;> simp

/-- C83. A source address, and the end of a range for each kind of start address or for none, and only with its start. -/
theorem C83_IPMulticastAddress (a b c d : IP) : IPMulticastAddress.codec.Keeps (IPMulticastAddress.new a b c d) ↔
    (a ≠ none ∨ b ≠ none) ∧ Sized 4 a ∧ Sized 16 b ∧ Sized 4 c ∧ Sized 16 d ∧
    (c ≠ none ∨ d ≠ none → (c ≠ none ↔ a ≠ none) ∧ (d ≠ none ↔ b ≠ none)) := by
  rw [C80_IPMulticastAddress]
  cases a <;> cases b <;> cases c <;> cases d <;> simp [IPMulticastAddress.new, bit, Nat.testBit, Sized, Announced]

/-- C83. No network instance; a source interface of four bits. -/
theorem C83_UserPlaneIPResourceInformation (f r : UInt8) (v4 v6 : IP) (ni : Bytes) (si : UInt8) :
    UserPlaneIPResourceInformation.codec.Keeps (UserPlaneIPResourceInformation.new f r v4 v6 ni si) ↔
    bit f 5 = false ∧
    (bit f 0 = true ∨ bit f 1 = true ∨ bit f 2 = true ∨ bit f 3 = true ∨ bit f 4 = true ∨ bit f 6 = true) ∧
    (bit f 0 = true → HoldsV4 v4) ∧ (bit f 1 = true → HoldsAny v6) ∧ (bit f 6 = true → si.toNat < 16) := by
  have tr : UserPlaneIPResourceInformation.hasTEIDRI f = (bit f 2 || bit f 3 || bit f 4) := by
    revert f; exact forall_byte (by decide +kernel)
  rw [C80_UserPlaneIPResourceInformation]
  simp only [UserPlaneIPResourceInformation.new, tr, has1stBit_eq, has2ndBit_eq, has6thBit_eq, has7thBit_eq]
  rw [announced_conv4, announced_conv16]
  refine and_congr_right fun h5 => and_congr_right fun _ => and_congr_right fun _ => and_congr_right fun _ => ?_
  rw [h5]
  cases bit f 2 <;> cases bit f 3 <;> cases bit f 4 <;> cases bit f 6 <;> simp

/-- C83. The fifth bit excludes addresses; the interface is cut to four bits by the constructor. -/
theorem C83_RemoteGTPUPeer (f : UInt8) (v4 v6 : IP) (di : UInt8) (ni : Bytes) :
    RemoteGTPUPeer.codec.Keeps (RemoteGTPUPeer.new f v4 v6 di ni) ↔
    (bit f 0 = true ∨ bit f 1 = true ∨ bit f 2 = true ∨ bit f 3 = true) ∧
    (bit f 4 = true → bit f 0 = false ∧ bit f 1 = false) ∧
    (bit f 1 = true → HoldsV4 v4) ∧ (bit f 0 = true → HoldsAny v6) ∧ (bit f 3 = true → ni.length < 65536) := by
  rw [C80_RemoteGTPUPeer]
  simp only [RemoteGTPUPeer.new, has1stBit_eq, has2ndBit_eq, has3rdBit_eq, has4thBit_eq]
  rw [announced_conv4, announced_conv16]
  refine and_congr_right fun _ => and_congr_right fun _ => and_congr_right fun _ => and_congr_right fun _ => ?_
  have hn : ni.length = (UInt16.ofNat ni.length).toNat ↔ ni.length < 65536 := by
    rw [UInt16.toNat_ofNat']; omega
  cases bit f 2 <;> cases bit f 3 <;> simp only [if_true, if_false, Bool.false_eq_true, hn] <;> simp

/-- C83. No MAC address. -/
theorem C83_PMFAddressInformation (v4 v6 : IP) (p1 p2 : UInt16) (m1 m2 : IP) :
    PMFAddressInformation.codec.Keeps (PMFAddressInformation.new v4 v6 p1 p2 m1 m2) ↔
    Sized 4 v4 ∧ Sized 16 v6 ∧ m1 = none ∧ m2 = none := by
  rw [C80_PMFAddressInformation, ← announced_sized, ← announced_sized]
  cases v4 <;> cases v6 <;> simp [PMFAddressInformation.new, bit, Nat.testBit]

theorem C83_MACAddress (a b c d : Option Bytes) : MACAddress.codec.Keeps (MACAddress.new a b c d) ↔
    (a ≠ none ∨ b ≠ none ∨ c ≠ none ∨ d ≠ none) ∧ Sized 6 a ∧ Sized 6 b ∧ Sized 6 c ∧ Sized 6 d := by
  rw [C80_MACAddress, ← announced_sized, ← announced_sized, ← announced_sized, ← announced_sized]
  cases a <;> cases b <;> cases c <;> cases d <;> simp [MACAddress.new, bit, Nat.testBit]

/-- C83. No tags and no bits 6 and 7 of the description; announced addresses must be given. -/
theorem C83_OuterHeaderCreation (d : UInt16) (teid : UInt32) (v4 v6 : IP) (port : UInt16) (ctag stag : UInt32) :
    OuterHeaderCreation.codec.Keeps (OuterHeaderCreation.new d teid v4 v6 port ctag stag) ↔
    (OHCV4 d = true → HoldsV4 v4) ∧ (OHCV6 d = true → HoldsAny v6) ∧ bit16 d 6 = false ∧ bit16 d 7 = false ∧
    (bit16 d 14 = true → ctag = 0) ∧ (bit16 d 15 = true → stag = 0) ∧
    (OHCPort d = true → bit16 d 14 = true ∨ bit16 d 15 = true → port = 0) := by
  obtain ⟨e1, e2, e3, e4, e5, e6⟩ := OuterHeaderCreation.has_eq d
  rw [C80_OuterHeaderCreation]
  simp only [OuterHeaderCreation.new, e1, e2, e3, e4, e5, e6]
  rw [announced_conv4, announced_conv16]
  refine and_congr_right fun _ => and_congr_right fun _ => and_congr_right fun _ => and_congr_right fun _ => ?_
  cases bit16 d 14 <;> cases bit16 d 15 <;> cases OHCTeid d <;> cases OHCPort d <;> simp

/-! ### Texts -/

theorem C83_HeaderEnrichment (t : UInt8) (n v : Bytes) : HeaderEnrichment.codec.Keeps (HeaderEnrichment.new t n v) ↔
    n.length < 256 ∧ v.length < 256 := by
  rw [C80_HeaderEnrichment]
  simp only [HeaderEnrichment.new, UInt8.toNat_ofNat']
  omega

theorem C83_Tag (f p d : UInt8) (v : UInt16) : Tag.codec.Keeps (Tag.new f p d v) ↔
    p.toNat < 8 ∧ d.toNat < 2 ∧ v.toNat < 256 ∧
    (bit f 0 = false → p = 0) ∧ (bit f 1 = false → d = 0) ∧ (bit f 2 = false → v = 0) := C80_Tag _

/-- C83. Something must be given, each of its length; the text is at most 65535 octets. -/
theorem C83_SDFFilter (fd ttc spi fl : Bytes) (fid : UInt32) :
    SDFFilter.codec.Keeps (SDFFilter.new fd ttc spi fl fid) ↔
    (fd ≠ [] ∨ ttc ≠ [] ∨ spi ≠ [] ∨ fl ≠ [] ∨ fid ≠ 0) ∧ fd.length < 65536 ∧
    (ttc = [] ∨ ttc.length = 2) ∧ (spi = [] ∨ spi.length = 4) ∧ (fl = [] ∨ fl.length = 3) := by
  rw [C80_SDFFilter]
  have key : ∀ (p q r s t : Prop) [Decidable p] [Decidable q] [Decidable r] [Decidable s] [Decidable t], ∀ f : UInt8,
      f = (let flags := 0
        let flags := if p then flags ||| 0x01 else flags
        let flags := if q then flags ||| 0x02 else flags
        let flags := if r then flags ||| 0x04 else flags
        let flags := if s then flags ||| 0x08 else flags
        if t then flags ||| 0x10 else flags) →
      bit f 0 = decide p ∧ bit f 1 = decide q ∧ bit f 2 = decide r ∧ bit f 3 = decide s ∧ bit f 4 = decide t := by
    intro p q r s t _ _ _ _ _ f hf
    subst hf
    by_cases p <;> by_cases q <;> by_cases r <;> by_cases s <;> by_cases t <;> simp [*, bit, Nat.testBit]
  obtain ⟨b0, b1, b2, b3, b4⟩ := key (fd ≠ []) (ttc ≠ []) (spi ≠ []) (fl ≠ []) (fid ≠ 0)
    (SDFFilter.new fd ttc spi fl fid).flags rfl
  rw [b0, b1, b2, b3, b4]
  simp only [SDFFilter.new, decide_eq_true_iff, decide_eq_false_iff_not, Decidable.not_not]
  refine and_congr Iff.rfl ?_
  have opt : ∀ (n : Nat) (x : Bytes), 0 < n → ((x.length = if x ≠ [] then n else 0) ↔ (x = [] ∨ x.length = n)) := by
    intro n x hn
    cases x with
    | nil => simp
    | cons a r => simp
  rw [opt 2 _ (by decide), opt 4 _ (by decide), opt 3 _ (by decide)]
  have hf : (fd.length = UInt16.toNat (if fd ≠ [] then UInt16.ofNat fd.length else 0)) ↔ fd.length < 65536 := by
    cases fd with
    | nil => simp
    | cons a r => rw [if_pos (by simp), UInt16.toNat_ofNat']; omega
  rw [hf]
  simp

/-- C83. The second address must be the first one without its first two octets, followed by its length. -/
theorem C83_RedirectInformation (t : UInt8) (addrs : List Bytes) (a b : Bytes) (h : redirectAddrs addrs = some (a, b)) :
    ∃ v, RedirectInformation.new t addrs = some v ∧ (RedirectInformation.codec.Keeps v ↔
      a.length < 65536 ∧ b = (a ++ be16 (UInt16.ofNat a.length)).drop 2) := by
  have hv : RedirectInformation.new t addrs =
      some ⟨t, UInt16.ofNat a.length, a, UInt16.ofNat b.length, b⟩ := by
    match addrs, h with
    | [x], h => cases h; rfl
    | x :: y :: r, h => cases h; rfl
  refine ⟨_, hv, ?_⟩
  rw [C80_RedirectInformation]
  simp only [UInt16.toNat_ofNat']
  constructor
  · rintro ⟨h1, _, h3⟩
    exact ⟨by omega, h3⟩
  · rintro ⟨h1, h3⟩
    refine ⟨by omega, ?_, h3⟩
    rw [show b.length = a.length by rw [h3]; simp]

/-- C83. Digit strings must be empty or of an odd number of digits, none of them in capitals. -/
theorem C83_UserID (f : UInt8) (imsi imei msisdn nai : Bytes) (v : UserID) (h : UserID.new f imsi imei msisdn nai = some v) :
    UserID.codec.Keeps v ↔
    (bit f 0 = true → (imsi = [] ∨ imsi.length % 2 = 1) ∧ imsi.length < 511 ∧ ∀ c ∈ imsi, IsLow c) ∧
    (bit f 1 = true → (imei = [] ∨ imei.length % 2 = 1) ∧ imei.length < 511 ∧ ∀ c ∈ imei, IsLow c) ∧
    (bit f 2 = true → (msisdn = [] ∨ msisdn.length % 2 = 1) ∧ msisdn.length < 511 ∧ ∀ c ∈ msisdn, IsLow c) ∧
    (bit f 3 = true → nai.length < 256) := by
  have key : ∀ (c : Bool) (s : Bytes) (p : UInt8 × Bytes), UserID.newDigits c s = some p →
      (DigitsKept c p.1 p.2 ↔ (c = true → (s = [] ∨ s.length % 2 = 1) ∧ s.length < 511 ∧ ∀ d ∈ s, IsLow d)) := by
    intro c s p hp
    unfold UserID.newDigits at hp
    cases c
    · cases hp
      simp [DigitsKept]
    · simp only [if_true] at hp
      split at hp
      · rename_i b hb
        cases hp
        have hl := (C31_ends s).2.2.2 b hb
        simp only [DigitsKept, UInt8.toNat_ofNat', Bool.true_eq_false, false_implies, true_and, forall_const]
        rw [← and_assoc]
        refine and_congr ?_ Iff.rfl
        rw [← List.length_eq_zero_iff]
        omega
      · cases hp
  unfold UserID.new at h
  cases h1 : UserID.newDigits (has1stBit f) imsi with
  | none => rw [h1] at h; cases h
  | some i =>
    cases h2 : UserID.newDigits (has2ndBit f) imei with
    | none => rw [h1, h2] at h; cases h
    | some e =>
      cases h3 : UserID.newDigits (has3rdBit f) msisdn with
      | none => rw [h1, h2, h3] at h; cases h
      | some m =>
        rw [h1, h2, h3] at h
        cases h
        have k1 := key _ _ _ h1
        have k2 := key _ _ _ h2
        have k3 := key _ _ _ h3
        rw [has1stBit_eq] at k1
        rw [has2ndBit_eq] at k2
        rw [has3rdBit_eq] at k3
        rw [C80_UserID]
        simp only [has4thBit_eq]
        rw [k1, k2, k3]
        refine and_congr Iff.rfl (and_congr Iff.rfl (and_congr Iff.rfl ?_))
        cases bit f 3
        · simp
        · simp only [if_true, UInt8.toNat_ofNat', Bool.true_eq_false, false_implies, and_true, forall_const]
          omega

/-- C83. Neither events nor interfaces nor an address. -/
theorem C83_TraceInformation (mcc mnc id events : Bytes) (depth : UInt8) (ifs : Bytes) (ip : IP) :
    TraceInformation.codec.Keeps (TraceInformation.new mcc mnc id events depth ifs ip) ↔
    events = [] ∧ ifs = [] ∧ ip = none ∧ id.length = 3 ∧
    mcc.length = 3 ∧ (mnc.length = 2 ∨ mnc.length = 3 ∧ mnc[2]? ≠ some 102) ∧
    (∀ c ∈ mcc, IsLow c) ∧ ∀ c ∈ mnc, IsLow c := by
  rw [C80_TraceInformation]
  unfold TraceInformation.new
  cases ip with
  | none => simp [IP.conv4]
  | some a => split <;> simp

/-- C83 is false throughout: no value comes back. -/
theorem C83_MACAddresses_violated (ctag stag : Option Bytes) (macs : List Bytes) (v : MACAddresses)
    (_ : MACAddresses.new ctag stag macs = .ok v) : ¬ MACAddresses.codec.Keeps v := C80_MACAddresses_violated v

open PFDContents in
/-- C83. All lengths must fit, no list may end in an empty text, and there must be room behind each text, as for C40. -/
theorem C83_PFDContents (fd url dn cp dnp : Bytes) (afd aurl adnp : List Bytes) :
    PFDContents.codec.Keeps (PFDContents.new fd url dn cp dnp afd aurl adnp) ↔
    Fits fd url dn cp dnp afd aurl adnp ∧
    (afd.getLast? ≠ some [] ∧ aurl.getLast? ≠ some [] ∧ adnp.getLast? ≠ some []) ∧
    Roomy (wire fd url dn cp dnp afd aurl adnp).length 2 [given fd, given url, given dn, given cp, given dnp] = true := by
  rw [← kept_iff, ← kept_iff, ← kept_iff]
  have step : Fits fd url dn cp dnp afd aurl adnp → (PFDContents.codec.Keeps (PFDContents.new fd url dn cp dnp afd aurl adnp) ↔
      (kept afd = afd ∧ kept aurl = aurl ∧ kept adnp = adnp) ∧
      Roomy (wire fd url dn cp dnp afd aurl adnp).length 2 [given fd, given url, given dn, given cp, given dnp] = true) := by
    intro hf
    have hm := C52_PFDContents fd url dn cp dnp afd aurl adnp hf
    have hp := C40_PFDContents_partial fd url dn cp dnp afd aurl adnp hf []
    rw [List.append_nil] at hp
    constructor
    · rintro ⟨w, h1, h2⟩
      have h2 := h2 []
      rw [hm] at h1
      cases h1
      rw [hp] at h2
      split at h2
      · rename_i hr
        injection h2 with h2
        have h2 := PFDContents.mk.inj h2
        exact ⟨⟨h2.2.2.2.2.2.2.2.2.2.2.2.2.1, h2.2.2.2.2.2.2.2.2.2.2.2.2.2.2.1, h2.2.2.2.2.2.2.2.2.2.2.2.2.2.2.2.2⟩, hr⟩
      · cases h2
    · rintro ⟨⟨h6, h7, h8⟩, hr⟩
      refine ⟨_, hm, fun sp => ?_⟩
      rw [hp, if_pos hr, h6, h7, h8]
      rfl
  constructor
  · intro hk
    have ht := (C43_PFDContents_partial fd url dn cp dnp afd aurl adnp).1.1 ⟨hk.choose, hk.choose_spec.1⟩
    have m : ∀ n, n < 65536 → (UInt16.ofNat n).toNat = n := by intro n hn; simp; omega
    have lt : ∀ {c : Bool} {t : Bytes}, TextKept c (UInt16.ofNat t.length) t → t.length < 65536 := by
      intro c t h
      have := h.1
      rw [UInt16.toNat_ofNat'] at this
      omega
    obtain ⟨⟨k1, k2, k3, k4, k5⟩, _⟩ := (C80_PFDContents_partial _ (m _ ht.1) (m _ ht.2.1) (m _ ht.2.2)).1 hk
    have hf : Fits fd url dn cp dnp afd aurl adnp := ⟨⟨lt k1, lt k2, lt k3, lt k4, lt k5⟩, ht⟩
    exact ⟨hf, (step hf).1 hk⟩
  · rintro ⟨hf, h⟩
    exact (step hf).2 h

example : PFDContents.codec.Keeps (PFDContents.new [1, 2, 3] [] [] [] [] [] [] []) :=
  (C83_PFDContents _ _ _ _ _ _ _ _).2 ⟨by unfold PFDContents.Fits; decide, by decide, by decide⟩
example : IP46.codec.Keeps (IP46.new (some [127, 0, 0, 1]) none) :=
  (C83_IP46 _ _).2 ⟨by decide, by simp [Sized], by simp [Sized]⟩
example : HeaderEnrichment.codec.Keeps (HeaderEnrichment.new 0 [65] [66, 67]) := (C83_HeaderEnrichment _ _ _).2 (by decide)

/-- C83 is false: three delays, the third not announced by the flags, do not come back. -/
theorem C83_violated : ¬ ∀ f dl ul rp, Delays.codec.Keeps (Delays.new f dl ul rp) := fun h =>
  absurd ((C83_Delays 3 1 2 3).1 (h 3 1 2 3)) (by decide)

end Fields
end Pfcp
