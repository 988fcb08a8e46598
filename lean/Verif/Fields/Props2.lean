/- Property theorems about structured elements that carry IP addresses: C40-C43, C52, C53 for the codecs of Addr.lean
and Addr2.lean. `bit f i` is bit number i of the flags, counted from 0; `wire4`/`wire16` the octets of an optional
address, `as4`/`as16` the address in 4-octet or 16-octet form. -/
import Verif.Fields.Addr
import Verif.Fields.Addr2

namespace Pfcp
namespace Fields

/-! ### AlternativeSMFIPAddress, CPPFCPEntityIPAddress -/

/-- C52. Flags octet (bit 2 of it IPv4, bit 1 IPv6, counted from 1), then the addresses given. -/
theorem C52_IP46 (v4 v6 : IP) (h4 : v4.Is4) (h6 : v6.Is16) :
    IP46.codec.Encodes (IP46.new v4 v6)
      ([(if v4.isSome then 2 else 0) + (if v6.isSome then 1 else 0)] ++ wire4 v4 ++ wire16 v6) := by
  have := IP46.emits (IP46.new v4 v6) ⟨h4, h6⟩
  unfold Codec.Encodes
  rw [this]
  cases v4 <;> cases v6 <;> simp [IP46.enc, IP46.new, wire4, wire16] <;> decide

/-- C40, when at least one address is given. -/
theorem C40_IP46_partial (v4 v6 : IP) (h4 : v4.Is4) (h6 : v6.Is16) (h : v4.isSome = true ∨ v6.isSome = true) :
    IP46.codec.Yields (IP46.new v4 v6)
      ⟨(if v4.isSome then 2 else 0) + (if v6.isSome then 1 else 0), v4.as4, v6.as16⟩ := by
  refine ⟨_, IP46.emits _ ⟨h4, h6⟩, fun tail sp => ?_⟩
  rw [IP46.reads _ ⟨h4, h6⟩ (IP46.new_agree v4 v6)]
  · cases v4 <;> cases v6 <;> simp [IP46.new] <;> decide
  · rw [IP46.enc_length _ ⟨h4, h6⟩]
    unfold IP46.marshalLen IP46.new
    cases v4 <;> cases v6 <;> simp at h ⊢

/-- C40 is false when both addresses are nil: the encoder's output is refused by the decoder. -/
theorem C40_IP46_violated : ∃ w, IP46.codec.marshal (IP46.new none none) = .ok w ∧
    IP46.codec.parse ⟨w, []⟩ = .err .unexpectedEOF := ⟨[0], by decide, by decide⟩

theorem C41_IP46 : IP46.codec.NoPanic := IP46.good.run.1
theorem C42_IP46 : IP46.codec.Local := IP46.good.run.2
theorem C43_IP46 (v4 v6 : IP) (h4 : v4.Is4) (h6 : v6.Is16) : IP46.codec.Builds (IP46.new v4 v6) :=
  ⟨_, IP46.emits _ ⟨h4, h6⟩⟩
theorem C53_IP46 : IP46.codec.Lossless := by
  intro s v h
  obtain ⟨w, post, e, ⟨rfl, hv, _⟩, _⟩ := IP46.takes s v h
  exact ⟨_, post, IP46.emits v hv, e⟩

example : IP.Is4 (some [192, 0, 2, 1]) := by intro a h; cases h; left; rfl
example : IP46.codec.parse ⟨[2, 192, 0, 2, 1, 9], [7]⟩ = .ok ⟨2, some [192, 0, 2, 1], none⟩ := by decide

/-! ### FSEID -/

theorem C52_FSEID (seid : UInt64) (v4 v6 : IP) (h4 : v4.Is4) (h6 : v6.Is16) :
    FSEID.codec.Encodes (FSEID.new seid v4 v6)
      ([(if v4.isSome then 2 else 0) + (if v6.isSome then 1 else 0)] ++ be64 seid ++ wire4 v4 ++ wire16 v6) := by
  have := FSEID.emits (FSEID.new seid v4 v6) ⟨h4, h6⟩ (FSEID.new_agree _ _ _)
  unfold Codec.Encodes
  rw [this]
  cases v4 <;> cases v6 <;> simp [FSEID.enc, FSEID.new, wire4, wire16] <;> decide

theorem C40_FSEID (seid : UInt64) (v4 v6 : IP) (h4 : v4.Is4) (h6 : v6.Is16) :
    FSEID.codec.Yields (FSEID.new seid v4 v6)
      ⟨(if v4.isSome then 2 else 0) + (if v6.isSome then 1 else 0), seid, v4.as4, v6.as16⟩ := by
  refine ⟨_, FSEID.emits _ ⟨h4, h6⟩ (FSEID.new_agree _ _ _), fun tail sp => ?_⟩
  rw [FSEID.reads _ ⟨h4, h6⟩ (FSEID.new_agree _ _ _)]
  cases v4 <;> cases v6 <;> simp [FSEID.new] <;> decide

theorem C41_FSEID : FSEID.codec.NoPanic := FSEID.good.run.1
theorem C42_FSEID : FSEID.codec.Local := FSEID.good.run.2
theorem C43_FSEID (seid : UInt64) (v4 v6 : IP) (h4 : v4.Is4) (h6 : v6.Is16) :
    FSEID.codec.Builds (FSEID.new seid v4 v6) :=
  ⟨_, FSEID.emits _ ⟨h4, h6⟩ (FSEID.new_agree _ _ _)⟩
theorem C53_FSEID : FSEID.codec.Lossless := by
  intro s v h
  obtain ⟨w, post, e, ⟨rfl, hv, ha⟩, _⟩ := FSEID.takes s v h
  exact ⟨_, post, FSEID.emits v hv ha, e⟩

example : IP.Is16 (some (List.replicate 16 1)) := by intro a h; cases h; right; rfl
example : FSEID.codec.parse ⟨[2, 0, 0, 0, 0, 0, 0, 0, 5, 192, 0, 2, 1], []⟩ = .ok ⟨2, 5, some [192, 0, 2, 1], none⟩ := by
  decide

/-! ### FTEID -/

/-- What `NewFTEID` documents: unless the CHOOSE bit is set, announced addresses are given. -/
def FTEIDArgs (flags : UInt8) (v4 v6 : IP) : Prop :=
  bit flags 2 = false → (bit flags 0 = true → v4.isSome = true ∧ v4.Is4) ∧
    (bit flags 1 = true → v6.isSome = true ∧ v6.Is16)

theorem FTEIDArgs.ready {flags : UInt8} {v4 v6 : IP} (h : FTEIDArgs flags v4 v6) (teid : UInt32) (chid : UInt8) :
    (FTEID.new flags teid v4 v6 chid).Ready := by
  intro hc
  unfold FTEID.new FTEID.hasCh at hc
  rw [has3rdBit_eq] at hc
  unfold FTEID.new FTEID.hasIPv4 FTEID.hasIPv6
  rw [has1stBit_eq, has2ndBit_eq]
  exact h hc

/-- C52. CHOOSE: flags and, if announced, the choose id. Otherwise flags, TEID and the announced addresses. -/
theorem C52_FTEID (flags : UInt8) (teid : UInt32) (v4 v6 : IP) (chid : UInt8) (h : FTEIDArgs flags v4 v6) :
    FTEID.codec.Encodes (FTEID.new flags teid v4 v6 chid)
      ([flags] ++ if bit flags 2 then (if bit flags 3 then [chid] else [])
        else be32 teid ++ (if bit flags 0 then wire4 v4 else []) ++ (if bit flags 1 then wire16 v6 else [])) := by
  unfold Codec.Encodes
  rw [FTEID.emits _ (h.ready teid chid)]
  simp only [FTEID.enc, FTEID.new, FTEID.hasCh, FTEID.hasChID, FTEID.hasIPv4, FTEID.hasIPv6, has1stBit_eq,
    has2ndBit_eq, has3rdBit_eq, has4thBit_eq, IP.when]
  cases bit flags 0 <;> cases bit flags 1 <;> cases bit flags 2 <;> cases bit flags 3 <;> simp [wire4, wire16]

theorem C40_FTEID (flags : UInt8) (teid : UInt32) (v4 v6 : IP) (chid : UInt8) (h : FTEIDArgs flags v4 v6) :
    FTEID.codec.Yields (FTEID.new flags teid v4 v6 chid)
      (if bit flags 2 then ⟨flags, 0, none, none, if bit flags 3 then chid else 0⟩
      else ⟨flags, teid, if bit flags 0 then v4.as4 else none, if bit flags 1 then v6.as16 else none, 0⟩) := by
  refine ⟨_, FTEID.emits _ (h.ready teid chid), fun tail sp => ?_⟩
  rw [FTEID.reads _ (h.ready teid chid)]
  simp only [FTEID.norm, FTEID.new, FTEID.hasCh, FTEID.hasChID, FTEID.hasIPv4, FTEID.hasIPv6, has1stBit_eq,
    has2ndBit_eq, has3rdBit_eq, has4thBit_eq, IP.when]
  cases bit flags 0 <;> cases bit flags 1 <;> cases bit flags 2 <;> cases bit flags 3 <;> rfl

/-- Without that hypothesis: with both address flags set and a nil IPv4 address, the decoder takes the first octets of
the IPv6 address for the IPv4 address. -/
theorem C40_FTEID_nil_violated : ∃ w, FTEID.codec.marshal (FTEID.new 3 7 none (some [0x20, 1, 0xd, 0xb8,
      0, 0, 0, 0, 0, 0, 0, 0, 0, 0, 0, 1]) 0) = .ok w ∧
    FTEID.codec.parse ⟨w, []⟩ = .ok ⟨3, 7, some [0x20, 1, 0xd, 0xb8], some [0, 0, 0, 0, 0, 0, 0, 0, 0, 0, 0, 1,
      0, 0, 0, 0], 0⟩ :=
  ⟨_, by rfl, by decide⟩

theorem C41_FTEID : FTEID.codec.NoPanic := FTEID.good.run.1
theorem C42_FTEID : FTEID.codec.Local := FTEID.good.run.2
theorem C43_FTEID (flags : UInt8) (teid : UInt32) (v4 v6 : IP) (chid : UInt8) (h : FTEIDArgs flags v4 v6) :
    FTEID.codec.Builds (FTEID.new flags teid v4 v6 chid) := ⟨_, FTEID.emits _ (h.ready teid chid)⟩
theorem C53_FTEID : FTEID.codec.Lossless := by
  intro s v h
  obtain ⟨w, post, e, ⟨rfl, hr⟩, _⟩ := FTEID.takes s v h
  exact ⟨_, post, FTEID.emits v hr, e⟩

example : FTEIDArgs 1 (some [1, 2, 3, 4]) none := by
  intro _
  refine ⟨fun _ => ⟨rfl, ?_⟩, fun h => absurd h (by decide)⟩
  intro a h; cases h; left; rfl
example : FTEID.codec.parse ⟨[0xc, 9], []⟩ = .ok ⟨0xc, 0, none, none, 9⟩ := by decide
example : FTEID.codec.parse ⟨[1, 0, 0, 0, 9, 1, 2, 3], [4]⟩ = .err .unexpectedEOF := by decide

/-! ### MPTCPAddressInformation -/

theorem C52_MPTCPAddressInformation (ptype : UInt8) (port : UInt16) (v4 v6 : IP) (h4 : v4.Is4) (h6 : v6.Is16) :
    MPTCPAddressInformation.codec.Encodes (MPTCPAddressInformation.new ptype port v4 v6)
      ([(if v4.isSome then 1 else 0) + (if v6.isSome then 2 else 0), ptype] ++ be16 port ++ wire4 v4 ++ wire16 v6) := by
  have := MPTCPAddressInformation.emits (.new ptype port v4 v6) ⟨h4, h6⟩ (MPTCPAddressInformation.new_agree _ _ _ _)
  unfold Codec.Encodes
  rw [this]
  cases v4 <;> cases v6 <;> simp [MPTCPAddressInformation.enc, MPTCPAddressInformation.new, wire4, wire16] <;>
    decide

theorem C40_MPTCPAddressInformation (ptype : UInt8) (port : UInt16) (v4 v6 : IP) (h4 : v4.Is4) (h6 : v6.Is16) :
    MPTCPAddressInformation.codec.Yields (MPTCPAddressInformation.new ptype port v4 v6)
      ⟨(if v4.isSome then 1 else 0) + (if v6.isSome then 2 else 0), ptype, port, v4.as4, v6.as16⟩ := by
  refine ⟨_, MPTCPAddressInformation.emits _ ⟨h4, h6⟩ (MPTCPAddressInformation.new_agree _ _ _ _), fun tail sp => ?_⟩
  rw [MPTCPAddressInformation.reads _ ⟨h4, h6⟩ (MPTCPAddressInformation.new_agree _ _ _ _)]
  cases v4 <;> cases v6 <;> simp [MPTCPAddressInformation.new] <;> decide

theorem C41_MPTCPAddressInformation : MPTCPAddressInformation.codec.NoPanic := MPTCPAddressInformation.good.run.1
theorem C42_MPTCPAddressInformation : MPTCPAddressInformation.codec.Local := MPTCPAddressInformation.good.run.2
theorem C43_MPTCPAddressInformation (ptype : UInt8) (port : UInt16) (v4 v6 : IP) (h4 : v4.Is4) (h6 : v6.Is16) :
    MPTCPAddressInformation.codec.Builds (MPTCPAddressInformation.new ptype port v4 v6) :=
  ⟨_, MPTCPAddressInformation.emits _ ⟨h4, h6⟩ (MPTCPAddressInformation.new_agree _ _ _ _)⟩
theorem C53_MPTCPAddressInformation : MPTCPAddressInformation.codec.Lossless := by
  intro s v h
  obtain ⟨w, post, e, ⟨rfl, hv, ha⟩, _⟩ := MPTCPAddressInformation.takes s v h
  exact ⟨_, post, MPTCPAddressInformation.emits v hv ha, e⟩

example : MPTCPAddressInformation.codec.parse ⟨[1, 6, 0x1f, 0x90, 192, 0, 2, 1], []⟩
    = .ok ⟨1, 6, 0x1f90, some [192, 0, 2, 1], none⟩ := by decide

/-! ### UELinkSpecificIPAddress -/

theorem C52_UELinkSpecificIPAddress (v4 v6 n4 n6 : IP) (h4 : v4.Is4) (h6 : v6.Is16) (g4 : n4.Is4) (g6 : n6.Is16) :
    UELinkSpecificIPAddress.codec.Encodes (UELinkSpecificIPAddress.new v4 v6 n4 n6)
      ([(if v4.isSome then 1 else 0) + (if v6.isSome then 2 else 0) + (if n4.isSome then 4 else 0) +
        (if n6.isSome then 8 else 0)] ++ wire4 v4 ++ wire16 v6 ++ wire4 n4 ++ wire16 n6) := by
  have := UELinkSpecificIPAddress.emits (.new v4 v6 n4 n6) ⟨h4, h6, g4, g6⟩
    (UELinkSpecificIPAddress.new_agree _ _ _ _)
  unfold Codec.Encodes
  rw [this]
  cases v4 <;> cases v6 <;> cases n4 <;> cases n6 <;>
    simp [UELinkSpecificIPAddress.enc, UELinkSpecificIPAddress.new, wire4, wire16] <;> decide

theorem C40_UELinkSpecificIPAddress (v4 v6 n4 n6 : IP) (h4 : v4.Is4) (h6 : v6.Is16) (g4 : n4.Is4) (g6 : n6.Is16) :
    UELinkSpecificIPAddress.codec.Yields (UELinkSpecificIPAddress.new v4 v6 n4 n6)
      ⟨(if v4.isSome then 1 else 0) + (if v6.isSome then 2 else 0) + (if n4.isSome then 4 else 0) +
        (if n6.isSome then 8 else 0), v4.as4, v6.as16, n4.as4, n6.as16⟩ := by
  refine ⟨_, UELinkSpecificIPAddress.emits _ ⟨h4, h6, g4, g6⟩ (UELinkSpecificIPAddress.new_agree _ _ _ _),
    fun tail sp => ?_⟩
  rw [UELinkSpecificIPAddress.reads _ ⟨h4, h6, g4, g6⟩ (UELinkSpecificIPAddress.new_agree _ _ _ _)]
  cases v4 <;> cases v6 <;> cases n4 <;> cases n6 <;> simp [UELinkSpecificIPAddress.new] <;> decide

theorem C41_UELinkSpecificIPAddress : UELinkSpecificIPAddress.codec.NoPanic := UELinkSpecificIPAddress.good.run.1
theorem C42_UELinkSpecificIPAddress : UELinkSpecificIPAddress.codec.Local := UELinkSpecificIPAddress.good.run.2
theorem C43_UELinkSpecificIPAddress (v4 v6 n4 n6 : IP) (h4 : v4.Is4) (h6 : v6.Is16) (g4 : n4.Is4) (g6 : n6.Is16) :
    UELinkSpecificIPAddress.codec.Builds (UELinkSpecificIPAddress.new v4 v6 n4 n6) :=
  ⟨_, UELinkSpecificIPAddress.emits _ ⟨h4, h6, g4, g6⟩ (UELinkSpecificIPAddress.new_agree _ _ _ _)⟩
theorem C53_UELinkSpecificIPAddress : UELinkSpecificIPAddress.codec.Lossless := by
  intro s v h
  obtain ⟨w, post, e, ⟨rfl, hv, ha⟩, _⟩ := UELinkSpecificIPAddress.takes s v h
  exact ⟨_, post, UELinkSpecificIPAddress.emits v hv ha, e⟩

example : UELinkSpecificIPAddress.codec.parse ⟨[5, 1, 2, 3, 4, 5, 6, 7, 8], []⟩
    = .ok ⟨5, some [1, 2, 3, 4], none, some [5, 6, 7, 8], none⟩ := by decide

/-! ### SourceIPAddress -/

theorem C52_SourceIPAddress (v4 v6 : IP) (mpl : UInt8) (h4 : v4.Is4) (h6 : v6.Is16) :
    SourceIPAddress.codec.Encodes (SourceIPAddress.new v4 v6 mpl)
      ([(if v4.isSome then 2 else 0) + (if v6.isSome then 1 else 0) + (if mpl = 0 then 0 else 4)] ++
        wire4 v4 ++ wire16 v6 ++ (if mpl = 0 then [] else [mpl])) := by
  obtain ⟨ha, hm⟩ := SourceIPAddress.new_agree v4 v6 mpl
  have := SourceIPAddress.emits (SourceIPAddress.new v4 v6 mpl) ⟨h4, h6⟩ ha
  unfold Codec.Encodes
  rw [this]
  unfold SourceIPAddress.enc
  rw [hm]
  by_cases h0 : mpl = 0 <;> cases v4 <;> cases v6 <;> simp [h0, SourceIPAddress.new, wire4, wire16] <;> decide

/-- C40, unless nothing at all is given. -/
theorem C40_SourceIPAddress_partial (v4 v6 : IP) (mpl : UInt8) (h4 : v4.Is4) (h6 : v6.Is16)
    (h : v4.isSome = true ∨ v6.isSome = true ∨ mpl ≠ 0) :
    SourceIPAddress.codec.Yields (SourceIPAddress.new v4 v6 mpl)
      ⟨(if v4.isSome then 2 else 0) + (if v6.isSome then 1 else 0) + (if mpl = 0 then 0 else 4),
        v4.as4, v6.as16, mpl⟩ := by
  obtain ⟨ha, hm⟩ := SourceIPAddress.new_agree v4 v6 mpl
  refine ⟨_, SourceIPAddress.emits _ ⟨h4, h6⟩ ha, fun tail sp => ?_⟩
  rw [SourceIPAddress.reads _ ⟨h4, h6⟩ ha, hm]
  · by_cases h0 : mpl = 0 <;> cases v4 <;> cases v6 <;> simp [h0, SourceIPAddress.new] <;> decide
  · rw [SourceIPAddress.enc_length _ ⟨h4, h6⟩ ha]
    unfold SourceIPAddress.marshalLen
    rw [ha.1, ha.2, hm]
    unfold SourceIPAddress.new
    by_cases h0 : mpl = 0 <;> cases v4 <;> cases v6 <;> simp [h0] at h ⊢

/-- C40 is false when both addresses are nil: the encoding is refused by the decoder. -/
theorem C40_SourceIPAddress_violated : ∃ w, SourceIPAddress.codec.marshal (SourceIPAddress.new none none 0) = .ok w ∧
    SourceIPAddress.codec.parse ⟨w, []⟩ = .err .unexpectedEOF := ⟨[0], by decide, by decide⟩

/-- C41 is false: a mask prefix length announced but missing at the very end makes the decoder panic. -/
theorem C41_SourceIPAddress_violated : SourceIPAddress.codec.parse ⟨[6, 192, 0, 2, 1], []⟩ = .panic := by decide

/-- C41: it panics for no other reason. If it panics, the flags announce a mask prefix length and the bytes end
exactly where it should be. -/
theorem C41_SourceIPAddress_partial (s : Slice) (h : SourceIPAddress.codec.parse s = .panic) :
    ∃ f rest, s.data = f :: rest ∧ bit f 2 = true ∧
      rest.length = (if bit f 1 then 4 else 0) + (if bit f 0 then 16 else 0) := by
  obtain ⟨d, sp⟩ := s
  by_cases hl : d.length < 2
  · rw [show SourceIPAddress.codec.parse ⟨d, sp⟩ = .err .unexpectedEOF from P.run_minLen_err hl] at h
    cases h
  cases d with
  | nil => simp at hl
  | cons f rest =>
    refine ⟨f, rest, rfl, ?_⟩
    -- each field either stops with an error or advances
    have e4 : ∀ (c : Bool) n o, o ≤ (f :: rest).length →
        (P.opt c (P.ip n) none ⟨f :: rest, sp⟩ o = .err .unexpectedEOF) ∨
        ∃ x, P.opt c (P.ip n) none ⟨f :: rest, sp⟩ o = .ok (x, o + if c then n else 0) ∧
          o + (if c then n else 0) ≤ (f :: rest).length := by
      intro c n o ho
      cases c
      · exact Or.inr ⟨none, rfl, by simpa using ho⟩
      · by_cases hn : (f :: rest).length < o + n
        · left
          show (P.field n >>= fun x => Pure.pure (some x) : P IP) _ _ = _
          apply P.bind_err
          apply P.bind_err
          unfold P.need
          exact if_pos hn
        · right
          refine ⟨some (((f :: rest).take (o + n)).drop o), ?_, by simp only [if_true]; omega⟩
          show (P.field n >>= fun x => Pure.pure (some x) : P IP) _ _ = _
          rw [P.bind_ok (a := ((f :: rest).take (o + n)).drop o) (o' := o + n)]
          · rfl
          · show (P.need n >>= fun _ => P.bytes n) _ _ = _
            rw [P.bind_ok (a := ()) (o' := o) (by unfold P.need; exact if_neg hn)]
            unfold P.bytes
            rw [P.sub_data _ _ _ _ (by omega) (by omega)]
            rfl
    have hp := h
    rw [show SourceIPAddress.codec.parse ⟨f :: rest, sp⟩ = _ from P.run_minLen_eq (show 2 ≤ (f :: rest).length by omega)] at hp
    unfold P.run at hp
    rw [P.bind_ok (a := f) (o' := 1) (by rfl)] at hp
    simp only [SourceIPAddress.hasIPv4, SourceIPAddress.hasIPv6, SourceIPAddress.hasMPL, has1stBit_eq, has2ndBit_eq,
      has3rdBit_eq] at hp
    rcases e4 (bit f 1) 4 1 (by simp) with e | ⟨x, e, l1⟩
    · rw [P.bind_err e] at hp; cases hp
    rw [P.bind_ok e] at hp
    rcases e4 (bit f 0) 16 _ l1 with e' | ⟨y, e', l2⟩
    · rw [P.bind_err e'] at hp; cases hp
    rw [P.bind_ok e'] at hp
    cases hb : bit f 2
    · rw [hb] at hp; cases hp
    · refine ⟨rfl, ?_⟩
      rw [hb] at hp
      simp only [P.opt_true] at hp
      rcases Nat.lt_or_ge (1 + (if bit f 1 then 4 else 0) + (if bit f 0 then 16 else 0)) (f :: rest).length with
        hlt | hge
      · exfalso
        rw [P.bind_ok (a := (f :: rest)[1 + (if bit f 1 then 4 else 0) + (if bit f 0 then 16 else 0)])
          (o' := 1 + (if bit f 1 then 4 else 0) + (if bit f 0 then 16 else 0) + 1)] at hp
        · cases hp
        · rw [P.bind_ok (a := ()) (o' := 1 + (if bit f 1 then 4 else 0) + (if bit f 0 then 16 else 0))]
          · unfold P.u8 Slice.idx
            simp only
            rw [List.getElem?_eq_getElem hlt]
            rfl
          · unfold P.need
            exact if_neg (by simp only; omega)
      · simp only [List.length_cons] at hge l2
        omega

theorem C42_SourceIPAddress : SourceIPAddress.codec.Local := by
  intro d sp sp'
  refine P.Loc.run (n := 2) (m := 0) ?_ d sp sp'
  exact P.Loc.bind P.Loc.u8 fun _ => P.Loc.bind (P.Loc.opt P.Good.ip.loc (Nat.zero_le _)) fun _ =>
    P.Loc.bind (P.Loc.opt P.Good.ip.loc (Nat.zero_le _)) fun _ =>
    P.Loc.bind (P.Loc.opt (P.Loc.bind (P.Good.need _).loc fun _ => P.Loc.u8) (Nat.zero_le _)) fun _ =>
    (P.Good.pure _ (Nat.le_refl _)).loc
theorem C43_SourceIPAddress (v4 v6 : IP) (mpl : UInt8) (h4 : v4.Is4) (h6 : v6.Is16) :
    SourceIPAddress.codec.Builds (SourceIPAddress.new v4 v6 mpl) :=
  ⟨_, SourceIPAddress.emits _ ⟨h4, h6⟩ (SourceIPAddress.new_agree v4 v6 mpl).1⟩
theorem C53_SourceIPAddress : SourceIPAddress.codec.Lossless := by
  intro s v h
  obtain ⟨w, post, e, ⟨rfl, hv, ha⟩, _⟩ := SourceIPAddress.takes s v h
  exact ⟨_, post, SourceIPAddress.emits v hv ha, e⟩

example : SourceIPAddress.codec.parse ⟨[6, 192, 0, 2, 1, 24], []⟩ = .ok ⟨6, some [192, 0, 2, 1], none, 24⟩ := by decide

/-! ### UEIPAddress -/

/-- Announced addresses (the CHOOSE bits not set) are given and parsable. -/
def UEIPAddressArgs (flags : UInt8) (v4 v6 : IP) : Prop :=
  (bit flags 1 = true → bit flags 4 = false → v4.isSome = true ∧ v4.Is4) ∧
  (bit flags 0 = true → bit flags 5 = false → v6.isSome = true ∧ v6.Is16)

theorem UEIPAddress.new_eq {flags : UInt8} {v4 v6 : IP} (h : UEIPAddressArgs flags v4 v6) (d pl : UInt8) :
    (UEIPAddress.new flags v4 v6 d pl).Agree ∧ UEIPAddress.new flags v4 v6 d pl =
      ⟨flags, if bit flags 1 && !bit flags 4 then v4.as4 else none,
        if bit flags 0 && !bit flags 5 then v6.as16 else none, if bit flags 3 then d else 0,
        if bit flags 6 then pl else 0⟩ := by
  unfold UEIPAddress.new UEIPAddress.Agree UEIPAddress.hasIPv4 UEIPAddress.hasIPv6
  simp only [has1stBit_eq, has2ndBit_eq, has4thBit_eq, has5thBit_eq, has6thBit_eq, has7thBit_eq]
  have a4 : (bit flags 1 && !bit flags 4) = true → v4.isSome = true ∧ v4.Is4 := by
    intro e
    rw [Bool.and_eq_true, Bool.not_eq_true'] at e
    exact h.1 e.1 e.2
  have a6 : (bit flags 0 && !bit flags 5) = true → v6.isSome = true ∧ v6.Is16 := by
    intro e
    rw [Bool.and_eq_true, Bool.not_eq_true'] at e
    exact h.2 e.1 e.2
  refine ⟨⟨?_, ?_⟩, ?_⟩
  · cases hc : (bit flags 1 && !bit flags 4)
    · exact ⟨rfl, by intro a ha; cases ha⟩
    · obtain ⟨h1, h2⟩ := a4 hc
      simp only [if_true]
      rw [IP.conv4_eq h2]
      exact ⟨by rw [IP.as4_isSome, h1], IP.as4_len h2⟩
  · cases hc : (bit flags 0 && !bit flags 5)
    · exact ⟨rfl, by intro a ha; cases ha⟩
    · obtain ⟨h1, h2⟩ := a6 hc
      simp only [if_true]
      rw [IP.conv16_eq h2]
      exact ⟨by rw [IP.as16_isSome, h1], IP.as16_len h2⟩
  · congr 1
    · cases hc : (bit flags 1 && !bit flags 4)
      · rfl
      · simp only [if_true]; rw [IP.conv4_eq (a4 hc).2]
    · cases hc : (bit flags 0 && !bit flags 5)
      · rfl
      · simp only [if_true]; rw [IP.conv16_eq (a6 hc).2]

theorem C52_UEIPAddress (flags : UInt8) (v4 v6 : IP) (d pl : UInt8) (h : UEIPAddressArgs flags v4 v6) :
    UEIPAddress.codec.Encodes (UEIPAddress.new flags v4 v6 d pl)
      ([flags] ++ (if bit flags 1 && !bit flags 4 then wire4 v4 else []) ++
        (if bit flags 0 && !bit flags 5 then wire16 v6 else []) ++ (if bit flags 3 then [d] else []) ++
        (if bit flags 6 then [pl] else [])) := by
  obtain ⟨ha, e⟩ := UEIPAddress.new_eq h d pl
  unfold Codec.Encodes
  rw [UEIPAddress.emits _ ha, e]
  simp only [UEIPAddress.enc, has4thBit_eq, has7thBit_eq]
  rw [← IP.as4_val, ← IP.as16_val]
  cases (bit flags 1 && !bit flags 4) <;> cases (bit flags 0 && !bit flags 5) <;> cases bit flags 3 <;>
    cases bit flags 6 <;> simp [IP.val]

/-- C40, unless both a delegation size and a prefix length are present. -/
theorem C40_UEIPAddress_partial (flags : UInt8) (v4 v6 : IP) (d pl : UInt8) (h : UEIPAddressArgs flags v4 v6)
    (hb : ¬ (bit flags 3 = true ∧ bit flags 6 = true)) :
    UEIPAddress.codec.Yields (UEIPAddress.new flags v4 v6 d pl)
      ⟨flags, if bit flags 1 && !bit flags 4 then v4.as4 else none,
        if bit flags 0 && !bit flags 5 then v6.as16 else none, if bit flags 3 then d else 0,
        if bit flags 6 then pl else 0⟩ := by
  obtain ⟨ha, e⟩ := UEIPAddress.new_eq h d pl
  refine ⟨_, UEIPAddress.emits _ ha, fun tail sp => ?_⟩
  rw [UEIPAddress.reads _ ha, e]
  simp only [has4thBit_eq, has7thBit_eq]
  revert hb
  cases bit flags 3 <;> cases bit flags 6 <;> simp

/-- C40 with both is false: whatever the arguments, the prefix length comes back as the delegation size. -/
theorem C40_UEIPAddress_violated (flags : UInt8) (v4 v6 : IP) (d pl : UInt8) (h : UEIPAddressArgs flags v4 v6)
    (hb : bit flags 3 = true ∧ bit flags 6 = true) :
    ∃ w v, UEIPAddress.codec.marshal (UEIPAddress.new flags v4 v6 d pl) = .ok w ∧
      UEIPAddress.codec.parse ⟨w, []⟩ = .ok v ∧ v.v6d = d ∧ v.v6pl = d := by
  obtain ⟨ha, e⟩ := UEIPAddress.new_eq h d pl
  have r := UEIPAddress.reads _ ha [] []
  rw [List.append_nil] at r
  refine ⟨_, _, UEIPAddress.emits _ ha, r, ?_, ?_⟩ <;> rw [e] <;> simp [has4thBit_eq, has7thBit_eq, hb.1, hb.2]

/-- An unparsable IPv4 address string is encoded as 0.0.0.0, and comes back as such. -/
theorem C40_UEIPAddress_unparsable_violated : ∃ w, UEIPAddress.codec.marshal (UEIPAddress.new 2 none none 0 0) = .ok w ∧
    UEIPAddress.codec.parse ⟨w, []⟩ = .ok ⟨2, some [0, 0, 0, 0], none, 0, 0⟩ := ⟨[2, 0, 0, 0, 0], by decide, by decide⟩

theorem C41_UEIPAddress : UEIPAddress.codec.NoPanic := UEIPAddress.good.run.1
theorem C42_UEIPAddress : UEIPAddress.codec.Local := UEIPAddress.good.run.2
theorem C43_UEIPAddress (flags : UInt8) (v4 v6 : IP) (d pl : UInt8) (h : UEIPAddressArgs flags v4 v6) :
    UEIPAddress.codec.Builds (UEIPAddress.new flags v4 v6 d pl) :=
  ⟨_, UEIPAddress.emits _ (UEIPAddress.new_eq h d pl).1⟩
/-- C53, unless both a delegation size and a prefix length are announced. -/
theorem C53_UEIPAddress_partial (s : Slice) (v : UEIPAddress) (h : UEIPAddress.codec.parse s = .ok v)
    (hb : ¬ (bit v.flags 3 = true ∧ bit v.flags 6 = true)) :
    ∃ w post, UEIPAddress.codec.marshal v = .ok w ∧ s.data = w ++ post := by
  obtain ⟨w, post, e, hk, _⟩ := UEIPAddress.takes s v h
  rw [has4thBit_eq, has7thBit_eq] at hk
  obtain ⟨rfl, ha⟩ := hk (by revert hb; cases bit v.flags 3 <;> cases bit v.flags 6 <;> simp)
  exact ⟨_, post, UEIPAddress.emits v ha, e⟩
/-- C53 is false with both a prefix delegation and a prefix length: the second is re-encoded as the first. -/
theorem C53_UEIPAddress_violated : ¬ UEIPAddress.codec.Lossless := by
  intro h
  obtain ⟨w, post, h1, h2⟩ := h ⟨[0x48, 7, 9], []⟩ ⟨0x48, none, none, 7, 7⟩ (by decide)
  have : UEIPAddress.codec.marshal ⟨0x48, none, none, 7, 7⟩ = .ok [0x48, 7, 7] := by decide
  rw [this] at h1
  cases h1
  revert h2
  simp

example : UEIPAddressArgs 0x02 (some [1, 2, 3, 4]) none := by
  refine ⟨fun _ _ => ⟨rfl, ?_⟩, fun h => absurd h (by decide)⟩
  intro a h; cases h; left; rfl

/-! ### RemoteGTPUPeer -/

/-- Announced addresses are given and parsable, the network instance fits its length field, the spare bit 5 is clear. -/
def RemoteGTPUPeerArgs (flags : UInt8) (v4 v6 : IP) (ni : Bytes) : Prop :=
  (bit flags 1 = true → v4.isSome = true ∧ v4.Is4) ∧ (bit flags 0 = true → v6.isSome = true ∧ v6.Is16) ∧
  ni.length < 65536 ∧ bit flags 4 = false

theorem RemoteGTPUPeer.new_eq {flags : UInt8} {v4 v6 : IP} {ni : Bytes} (h : RemoteGTPUPeerArgs flags v4 v6 ni)
    (di : UInt8) :
    (RemoteGTPUPeer.new flags v4 v6 di ni).Ready ∧ RemoteGTPUPeer.new flags v4 v6 di ni =
      ⟨flags, if bit flags 1 then v4.as4 else none, if bit flags 0 then v6.as16 else none,
        if bit flags 2 then 1 else 0, if bit flags 2 then di &&& 0x0f else 0,
        if bit flags 3 then UInt16.ofNat ni.length else 0, if bit flags 3 then ni else []⟩ := by
  obtain ⟨a4, a6, hn, h5⟩ := h
  unfold RemoteGTPUPeer.new RemoteGTPUPeer.Ready
  simp only [has1stBit_eq, has2ndBit_eq, has3rdBit_eq, has4thBit_eq, has5thBit_eq]
  refine ⟨⟨h5, ⟨?_, ?_⟩, ?_, ?_⟩, ?_⟩
  · cases hc : bit flags 1
    · exact ⟨rfl, by intro a ha; cases ha⟩
    · obtain ⟨h1, h2⟩ := a4 hc
      simp only [if_true]
      rw [IP.conv4_eq h2]
      exact ⟨by rw [IP.as4_isSome, h1], IP.as4_len h2⟩
  · cases hc : bit flags 0
    · exact ⟨rfl, by intro a ha; cases ha⟩
    · obtain ⟨h1, h2⟩ := a6 hc
      simp only [if_true]
      rw [IP.conv16_eq h2]
      exact ⟨by rw [IP.as16_isSome, h1], IP.as16_len h2⟩
  · intro e; simp [e]
  · intro e
    simp only [e, if_true, UInt16.toNat_ofNat']
    exact (Nat.mod_eq_of_lt (a := ni.length) (by omega)).symm
  · congr 1
    · cases hc : bit flags 1
      · rfl
      · simp only [if_true]; rw [IP.conv4_eq (a4 hc).2]
    · cases hc : bit flags 0
      · rfl
      · simp only [if_true]; rw [IP.conv16_eq (a6 hc).2]

theorem RemoteGTPUPeer.new_len {flags : UInt8} {v4 v6 : IP} {ni : Bytes} (h : RemoteGTPUPeerArgs flags v4 v6 ni)
    (di : UInt8) (hf : ∃ i, i < 4 ∧ bit flags i = true) : 2 ≤ (RemoteGTPUPeer.new flags v4 v6 di ni).enc.length := by
  rw [RemoteGTPUPeer.enc_length _ (RemoteGTPUPeer.new_eq h di).1]
  unfold RemoteGTPUPeer.marshalLen RemoteGTPUPeer.new
  simp only [has1stBit_eq, has2ndBit_eq, has3rdBit_eq, has4thBit_eq, has5thBit_eq, h.2.2.2]
  obtain ⟨i, hi, hb⟩ := hf
  have : i = 0 ∨ i = 1 ∨ i = 2 ∨ i = 3 := by omega
  rcases this with rfl | rfl | rfl | rfl <;> simp only [hb, Bool.not_false, Bool.and_true, if_true] <;>
    (repeat' split) <;> omega

/-- C52. Addresses, then the destination interface and the network instance, each behind a two-octet length. -/
theorem C52_RemoteGTPUPeer (flags : UInt8) (v4 v6 : IP) (di : UInt8) (ni : Bytes)
    (h : RemoteGTPUPeerArgs flags v4 v6 ni) (hf : ∃ i, i < 4 ∧ bit flags i = true) :
    RemoteGTPUPeer.codec.Encodes (RemoteGTPUPeer.new flags v4 v6 di ni)
      ([flags] ++ (if bit flags 1 then wire4 v4 else []) ++ (if bit flags 0 then wire16 v6 else []) ++
        (if bit flags 2 then [0, 1, di &&& 0x0f] else []) ++
        (if bit flags 3 then be16 (UInt16.ofNat ni.length) ++ ni else [])) := by
  obtain ⟨ha, e⟩ := RemoteGTPUPeer.new_eq h di
  unfold Codec.Encodes
  rw [RemoteGTPUPeer.emits _ ha (RemoteGTPUPeer.new_len h di hf), e]
  simp only [RemoteGTPUPeer.enc, has3rdBit_eq, has4thBit_eq]
  rw [← IP.as4_val, ← IP.as16_val]
  have e1 : be16 1 = [0, 1] := by decide
  cases bit flags 0 <;> cases bit flags 1 <;> cases bit flags 2 <;> cases bit flags 3 <;> simp [IP.val, e1]

/-- C40, with some flag set and a network instance that fits. -/
theorem C40_RemoteGTPUPeer_partial (flags : UInt8) (v4 v6 : IP) (di : UInt8) (ni : Bytes)
    (h : RemoteGTPUPeerArgs flags v4 v6 ni) (hf : ∃ i, i < 4 ∧ bit flags i = true) :
    RemoteGTPUPeer.codec.Yields (RemoteGTPUPeer.new flags v4 v6 di ni)
      ⟨flags, if bit flags 1 then v4.as4 else none, if bit flags 0 then v6.as16 else none,
        if bit flags 2 then 1 else 0, if bit flags 2 then di &&& 0x0f else 0,
        if bit flags 3 then UInt16.ofNat ni.length else 0, if bit flags 3 then ni else []⟩ := by
  obtain ⟨ha, e⟩ := RemoteGTPUPeer.new_eq h di
  refine ⟨_, RemoteGTPUPeer.emits _ ha (RemoteGTPUPeer.new_len h di hf), fun tail sp => ?_⟩
  rw [RemoteGTPUPeer.reads _ ha (RemoteGTPUPeer.new_len h di hf), e]
  simp only [has3rdBit_eq, has4thBit_eq]
  cases bit flags 2 <;> cases bit flags 3 <;> rfl

/-- C43 is false: no flags give an error, and a set bit 5 makes the constructor panic. -/
theorem C43_RemoteGTPUPeer_violated :
    RemoteGTPUPeer.codec.marshal (RemoteGTPUPeer.new 0 none none 0 []) = .err .unexpectedEOF ∧
    RemoteGTPUPeer.codec.marshal (RemoteGTPUPeer.new 0x16 (some [192, 0, 2, 1]) none 1 []) = .panic := by decide
theorem C43_RemoteGTPUPeer_partial (flags : UInt8) (v4 v6 : IP) (di : UInt8) (ni : Bytes)
    (h : RemoteGTPUPeerArgs flags v4 v6 ni) (hf : ∃ i, i < 4 ∧ bit flags i = true) :
    RemoteGTPUPeer.codec.Builds (RemoteGTPUPeer.new flags v4 v6 di ni) :=
  ⟨_, RemoteGTPUPeer.emits _ (RemoteGTPUPeer.new_eq h di).1 (RemoteGTPUPeer.new_len h di hf)⟩

/-- C41 is false: a destination interface of length 0 at the end. -/
theorem C41_RemoteGTPUPeer_violated : RemoteGTPUPeer.codec.parse ⟨[4, 0, 0], []⟩ = .panic := by decide
theorem C42_RemoteGTPUPeer : RemoteGTPUPeer.codec.Local := by
  intro d sp sp'
  exact P.Loc.run (n := 2) (m := 0) RemoteGTPUPeer.loc d sp sp'
/-- C53 is false: only the first octet of the destination interface is kept; and with length 0 re-encoding panics. -/
theorem C53_RemoteGTPUPeer_violated :
    (RemoteGTPUPeer.codec.parse ⟨[4, 0, 2, 7, 8], []⟩ = .ok ⟨4, none, none, 2, 7, 0, []⟩ ∧
      RemoteGTPUPeer.codec.marshal ⟨4, none, none, 2, 7, 0, []⟩ = .ok [4, 0, 2, 7, 0]) ∧
    (RemoteGTPUPeer.codec.parse ⟨[4, 0, 0, 9], []⟩ = .ok ⟨4, none, none, 0, 9, 0, []⟩ ∧
      RemoteGTPUPeer.codec.marshal ⟨4, none, none, 0, 9, 0, []⟩ = .panic) := by decide

/-- C53, with a destination interface of one octet, some flag set and the spare bit 5 clear. -/
theorem C53_RemoteGTPUPeer_partial (s : Slice) (v : RemoteGTPUPeer) (h : RemoteGTPUPeer.codec.parse s = .ok v)
    (hd : bit v.flags 2 = true → v.diLength = 1) (h5 : bit v.flags 4 = false)
    (hf : ∃ i, i < 4 ∧ bit v.flags i = true) :
    ∃ w post, RemoteGTPUPeer.codec.marshal v = .ok w ∧ s.data = w ++ post := by
  obtain ⟨w, post, e, hk, _⟩ := RemoteGTPUPeer.takes s v h
  rw [has3rdBit_eq, has5thBit_eq] at hk
  obtain ⟨rfl, hr⟩ := hk h5 hd
  refine ⟨_, post, RemoteGTPUPeer.emits v hr ?_, e⟩
  rw [RemoteGTPUPeer.enc_length v hr]
  unfold RemoteGTPUPeer.marshalLen
  simp only [has1stBit_eq, has2ndBit_eq, has3rdBit_eq, has4thBit_eq, has5thBit_eq, h5]
  obtain ⟨i, hi, hb⟩ := hf
  have : i = 0 ∨ i = 1 ∨ i = 2 ∨ i = 3 := by omega
  rcases this with rfl | rfl | rfl | rfl <;> simp only [hb, Bool.not_false, Bool.and_true, if_true] <;>
    (repeat' split) <;> omega

example : RemoteGTPUPeerArgs 0x0e (some [1, 2, 3, 4]) none [65] := by
  refine ⟨fun _ => ⟨rfl, ?_⟩, fun h => absurd h (by decide), by decide, by decide⟩
  intro a h; cases h; left; rfl

/-! ### IPMulticastAddress -/

/-- A start address, and either no end or an end for each start. -/
def IPMulticastAddressArgs (s4 s6 e4 e6 : IP) : Prop :=
  (s4.Is4 ∧ s6.Is16 ∧ e4.Is4 ∧ e6.Is16) ∧ (s4.isSome = true ∨ s6.isSome = true) ∧
  ((e4 = none ∧ e6 = none) ∨ (e4.isSome = s4.isSome ∧ e6.isSome = s6.isSome))

theorem IPMulticastAddress.new_eq {s4 s6 e4 e6 : IP} (h : IPMulticastAddressArgs s4 s6 e4 e6) :
    (IPMulticastAddress.new s4 s6 e4 e6).Agree ∧ (IPMulticastAddress.new s4 s6 e4 e6).Valid ∧
    IPMulticastAddress.new s4 s6 e4 e6 = ⟨(if s6.isSome then 1 else 0) + (if s4.isSome then 2 else 0) +
      (if e4.isSome || e6.isSome then 4 else 0), s4, s6, e4, e6⟩ := by
  obtain ⟨hv, hs, he⟩ := h
  have e : IPMulticastAddress.new s4 s6 e4 e6 = ⟨(if s6.isSome then 1 else 0) + (if s4.isSome then 2 else 0) +
      (if e4.isSome || e6.isSome then 4 else 0), s4, s6, e4, e6⟩ := by
    unfold IPMulticastAddress.new
    cases s4 <;> cases s6 <;> cases e4 <;> cases e6 <;> first | (exfalso; simp at hs; done) | (simp; done) | (simp; decide)
  refine ⟨?_, ?_, e⟩
  · rw [e]
    unfold IPMulticastAddress.Agree
    have key : ∀ a b c d : Bool, (a = true ∨ b = true) → ((c = false ∧ d = false) ∨ (c = a ∧ d = b)) →
        let fl : UInt8 := (if b then 1 else 0) + (if a then 2 else 0) + (if c || d then 4 else 0)
        IPMulticastAddress.hasAny fl = false ∧ IPMulticastAddress.hasIPv4 fl = a ∧
        IPMulticastAddress.hasIPv6 fl = b ∧ (IPMulticastAddress.hasRange fl && IPMulticastAddress.hasIPv4 fl) = c ∧
        (IPMulticastAddress.hasRange fl && IPMulticastAddress.hasIPv6 fl) = d := by decide
    have hk := key s4.isSome s6.isSome e4.isSome e6.isSome hs (by
      rcases he with ⟨rfl, rfl⟩ | he
      · exact Or.inl ⟨rfl, rfl⟩
      · exact Or.inr he)
    obtain ⟨k1, k2⟩ := hk
    simp only [k1]
    exact k2
  · rw [e]; exact hv

theorem C52_IPMulticastAddress (s4 s6 e4 e6 : IP) (h : IPMulticastAddressArgs s4 s6 e4 e6) :
    IPMulticastAddress.codec.Encodes (IPMulticastAddress.new s4 s6 e4 e6)
      ([(if s6.isSome then 1 else 0) + (if s4.isSome then 2 else 0) + (if e4.isSome || e6.isSome then 4 else 0)] ++
        wire4 s4 ++ wire16 s6 ++ wire4 e4 ++ wire16 e6) := by
  obtain ⟨ha, hv, e⟩ := IPMulticastAddress.new_eq h
  unfold Codec.Encodes
  rw [IPMulticastAddress.emits _ hv ha, e]
  simp [IPMulticastAddress.enc]

theorem C40_IPMulticastAddress_partial (s4 s6 e4 e6 : IP) (h : IPMulticastAddressArgs s4 s6 e4 e6) :
    IPMulticastAddress.codec.Yields (IPMulticastAddress.new s4 s6 e4 e6)
      ⟨(if s6.isSome then 1 else 0) + (if s4.isSome then 2 else 0) + (if e4.isSome || e6.isSome then 4 else 0),
        s4.as4, s6.as16, e4.as4, e6.as16⟩ := by
  obtain ⟨ha, hv, e⟩ := IPMulticastAddress.new_eq h
  refine ⟨_, IPMulticastAddress.emits _ hv ha, fun tail sp => ?_⟩
  rw [IPMulticastAddress.reads _ hv ha, e]
  rw [List.length_append, IPMulticastAddress.enc_length _ hv, e]
  unfold IPMulticastAddress.marshalLen
  have := h.2.1
  cases s4 <;> cases s6 <;> simp at this ⊢ <;> (repeat' split) <;> omega

/-- C40 is false for "any": its one-octet encoding is refused by the decoder. -/
theorem C40_IPMulticastAddress_violated :
    ∃ w, IPMulticastAddress.codec.marshal (IPMulticastAddress.new none none none none) = .ok w ∧
      IPMulticastAddress.codec.parse ⟨w, []⟩ = .err .unexpectedEOF := ⟨[8], by decide, by decide⟩

theorem C41_IPMulticastAddress : IPMulticastAddress.codec.NoPanic := IPMulticastAddress.good.run.1
theorem C42_IPMulticastAddress : IPMulticastAddress.codec.Local := IPMulticastAddress.good.run.2
theorem C43_IPMulticastAddress_partial (s4 s6 e4 e6 : IP) (h : IPMulticastAddressArgs s4 s6 e4 e6) :
    IPMulticastAddress.codec.Builds (IPMulticastAddress.new s4 s6 e4 e6) := by
  obtain ⟨ha, hv, _⟩ := IPMulticastAddress.new_eq h
  exact ⟨_, IPMulticastAddress.emits _ hv ha⟩
/-- C43 is false for two start addresses and one end: the constructor returns nil. -/
theorem C43_IPMulticastAddress_violated :
    IPMulticastAddress.codec.marshal (IPMulticastAddress.new (some [224, 0, 0, 1]) (some (List.replicate 16 255))
      (some [224, 0, 0, 9]) none) = .err .unexpectedEOF := by decide
theorem C53_IPMulticastAddress : IPMulticastAddress.codec.Lossless := by
  intro s v h
  obtain ⟨w, post, e, ⟨rfl, hv, ha⟩, _⟩ := IPMulticastAddress.takes s v h
  exact ⟨_, post, IPMulticastAddress.emits v hv ha, e⟩

example : IPMulticastAddressArgs (some [224, 0, 0, 1]) none (some [224, 0, 0, 9]) none := by
  refine ⟨⟨?_, IP.none_is16, ?_, IP.none_is16⟩, Or.inl rfl, Or.inr ⟨rfl, rfl⟩⟩ <;> intro a h <;> cases h <;> left <;> rfl

/-! ### UserPlaneIPResourceInformation -/

/-- Announced addresses are given and parsable. -/
def UserPlaneIPResourceInformationArgs (flags : UInt8) (v4 v6 : IP) : Prop :=
  (bit flags 0 = true → v4.isSome = true ∧ v4.Is4) ∧ (bit flags 1 = true → v6.isSome = true ∧ v6.Is16)

theorem UserPlaneIPResourceInformation.hasTEIDRI_eq (f : UInt8) :
    UserPlaneIPResourceInformation.hasTEIDRI f = (bit f 2 || bit f 3 || bit f 4) := by
  revert f; exact forall_byte (by decide +kernel)

theorem UserPlaneIPResourceInformation.new_eq {flags : UInt8} {v4 v6 : IP}
    (h : UserPlaneIPResourceInformationArgs flags v4 v6) (tr : UInt8) (ni : Bytes) (si : UInt8) :
    (UserPlaneIPResourceInformation.new flags tr v4 v6 ni si).Agree ∧
    UserPlaneIPResourceInformation.new flags tr v4 v6 ni si =
      ⟨flags, if bit flags 2 || bit flags 3 || bit flags 4 then tr else 0, if bit flags 0 then v4.as4 else none,
        if bit flags 1 then v6.as16 else none, if bit flags 5 then ni else [], if bit flags 6 then si else 0⟩ := by
  obtain ⟨a4, a6⟩ := h
  unfold UserPlaneIPResourceInformation.new UserPlaneIPResourceInformation.Agree
  simp only [has1stBit_eq, has2ndBit_eq, has6thBit_eq, has7thBit_eq, UserPlaneIPResourceInformation.hasTEIDRI_eq]
  refine ⟨⟨?_, ?_⟩, ?_⟩
  · cases hc : bit flags 0
    · exact ⟨rfl, by intro a ha; cases ha⟩
    · obtain ⟨h1, h2⟩ := a4 hc
      simp only [if_true]
      rw [IP.conv4_eq h2]
      exact ⟨by rw [IP.as4_isSome, h1], IP.as4_len h2⟩
  · cases hc : bit flags 1
    · exact ⟨rfl, by intro a ha; cases ha⟩
    · obtain ⟨h1, h2⟩ := a6 hc
      simp only [if_true]
      rw [IP.conv16_eq h2]
      exact ⟨by rw [IP.as16_isSome, h1], IP.as16_len h2⟩
  · congr 1
    · cases hc : bit flags 0
      · rfl
      · simp only [if_true]; rw [IP.conv4_eq (a4 hc).2]
    · cases hc : bit flags 1
      · rfl
      · simp only [if_true]; rw [IP.conv16_eq (a6 hc).2]

theorem UserPlaneIPResourceInformation.new_len {flags : UInt8} {v4 v6 : IP}
    (h : UserPlaneIPResourceInformationArgs flags v4 v6) (tr : UInt8) (ni : Bytes) (si : UInt8)
    (hf : (∃ i, i < 5 ∧ bit flags i = true) ∨ bit flags 6 = true) :
    2 ≤ (UserPlaneIPResourceInformation.new flags tr v4 v6 ni si).enc.length := by
  rw [UserPlaneIPResourceInformation.enc_length _ (UserPlaneIPResourceInformation.new_eq h tr ni si).1]
  unfold UserPlaneIPResourceInformation.marshalLen UserPlaneIPResourceInformation.new
  simp only [has1stBit_eq, has2ndBit_eq, has6thBit_eq, has7thBit_eq, UserPlaneIPResourceInformation.hasTEIDRI_eq]
  have : bit flags 0 = true ∨ bit flags 1 = true ∨ bit flags 2 = true ∨ bit flags 3 = true ∨ bit flags 4 = true ∨
      bit flags 6 = true := by
    rcases hf with ⟨i, hi, hb⟩ | hb
    · have : i = 0 ∨ i = 1 ∨ i = 2 ∨ i = 3 ∨ i = 4 := by omega
      rcases this with rfl | rfl | rfl | rfl | rfl <;> simp [hb]
    · simp [hb]
  rcases this with hb | hb | hb | hb | hb | hb <;>
    simp only [hb, Bool.or_true, Bool.true_or, if_true] <;> (repeat' split) <;> omega

/-- C52. -/
theorem C52_UserPlaneIPResourceInformation (flags tr : UInt8) (v4 v6 : IP) (ni : Bytes) (si : UInt8)
    (h : UserPlaneIPResourceInformationArgs flags v4 v6)
    (hf : (∃ i, i < 5 ∧ bit flags i = true) ∨ bit flags 6 = true) :
    UserPlaneIPResourceInformation.codec.Encodes (UserPlaneIPResourceInformation.new flags tr v4 v6 ni si)
      ([flags] ++ (if bit flags 2 || bit flags 3 || bit flags 4 then [tr] else []) ++
        (if bit flags 0 then wire4 v4 else []) ++ (if bit flags 1 then wire16 v6 else []) ++
        (if bit flags 5 then ni else []) ++ (if bit flags 6 then [si] else [])) := by
  obtain ⟨ha, e⟩ := UserPlaneIPResourceInformation.new_eq h tr ni si
  unfold Codec.Encodes
  rw [UserPlaneIPResourceInformation.emits _ ha (UserPlaneIPResourceInformation.new_len h tr ni si hf), e]
  simp only [UserPlaneIPResourceInformation.enc, has6thBit_eq, has7thBit_eq,
    UserPlaneIPResourceInformation.hasTEIDRI_eq]
  rw [← IP.as4_val, ← IP.as16_val]
  cases (bit flags 2 || bit flags 3 || bit flags 4) <;> cases bit flags 0 <;> cases bit flags 1 <;>
    cases bit flags 5 <;> cases bit flags 6 <;> simp [IP.val]

/-- C40, without a network instance and with a four-bit source interface. -/
theorem C40_UserPlaneIPResourceInformation_partial (flags tr : UInt8) (v4 v6 : IP) (ni : Bytes) (si : UInt8)
    (h : UserPlaneIPResourceInformationArgs flags v4 v6)
    (hf : (∃ i, i < 5 ∧ bit flags i = true) ∨ bit flags 6 = true) (h5 : bit flags 5 = false)
    (hsi : si.toNat < 16) :
    UserPlaneIPResourceInformation.codec.Yields (UserPlaneIPResourceInformation.new flags tr v4 v6 ni si)
      ⟨flags, if bit flags 2 || bit flags 3 || bit flags 4 then tr else 0, if bit flags 0 then v4.as4 else none,
        if bit flags 1 then v6.as16 else none, [], if bit flags 6 then si else 0⟩ := by
  obtain ⟨ha, e⟩ := UserPlaneIPResourceInformation.new_eq h tr ni si
  have hl := UserPlaneIPResourceInformation.new_len h tr ni si hf
  refine ⟨_, UserPlaneIPResourceInformation.emits _ ha hl, fun tail sp => ?_⟩
  rw [UserPlaneIPResourceInformation.reads _ ha hl (by rw [e, has6thBit_eq]; exact h5), e]
  simp only [has7thBit_eq, UserPlaneIPResourceInformation.hasTEIDRI_eq]
  have hm : si &&& 0x0f = si := by
    clear ha e hl
    revert hsi; revert si
    exact forall_byte (by decide +kernel)
  cases (bit flags 2 || bit flags 3 || bit flags 4) <;> cases bit flags 6 <;> simp [hm]

/-- C40 is false with a network instance: nothing that announces one is ever decoded. -/
theorem C40_UserPlaneIPResourceInformation_violated (f : UInt8) (rest sp : Bytes) (h5 : bit f 5 = true)
    (v : UserPlaneIPResourceInformation) :
    UserPlaneIPResourceInformation.codec.parse ⟨f :: rest, sp⟩ ≠ .ok v := by
  intro h
  obtain ⟨f', rest', e, _, h6⟩ := UserPlaneIPResourceInformation.parse_ni _ _ h
  cases e
  rw [has6thBit_eq, h5] at h6
  cases h6

/-- C41 is false: a source interface announced but missing. -/
theorem C41_UserPlaneIPResourceInformation_violated :
    UserPlaneIPResourceInformation.codec.parse ⟨[0x41, 192, 0, 2, 1], []⟩ = .panic ∧
    ∀ rest sp : Bytes, rest ≠ [] → UserPlaneIPResourceInformation.codec.parse ⟨0x60 :: rest, sp⟩ = .panic := by
  refine ⟨by decide, ?_⟩
  intro rest sp hr
  have hl : 2 ≤ (Slice.mk (0x60 :: rest) sp).data.length := by
    cases rest with
    | nil => exact absurd rfl hr
    | cons => simp
  rw [show UserPlaneIPResourceInformation.codec.parse ⟨0x60 :: rest, sp⟩ = _ from P.run_minLen_eq hl]
  unfold P.run
  rw [P.bind_ok (a := 0x60) (o' := 1) (by rfl)]
  rw [show has6thBit 0x60 = true from by decide, show has7thBit 0x60 = true from by decide,
    show has1stBit 0x60 = false from by decide, show has2ndBit 0x60 = false from by decide,
    show UserPlaneIPResourceInformation.hasTEIDRI 0x60 = false from by decide]
  simp only [P.opt_true, P.opt_false, P.bind_pure', if_true]
  rw [P.bind_ok (a := (0x60 :: rest).length) (o' := 1) (by rfl), P.bind_panic]
  apply P.bind_panic
  unfold UserPlaneIPResourceInformation.at_ Slice.idx
  rw [List.getElem?_eq_none (Nat.le_refl _)]
  rfl
theorem C42_UserPlaneIPResourceInformation : UserPlaneIPResourceInformation.codec.Local := by
  intro d sp sp'
  refine P.Loc.run (n := 2) (m := 0) ?_ d sp sp'
  apply P.Loc.bind P.Loc.u8
  intro fl
  apply P.Loc.bind (P.Loc.opt P.Good.byte.loc (Nat.zero_le _))
  intro tr
  apply P.Loc.bind (P.Loc.opt P.Good.ip.loc (Nat.zero_le _))
  intro v4
  apply P.Loc.bind (P.Loc.opt P.Good.ip.loc (Nat.zero_le _))
  intro v6
  apply P.Loc.ite <;> intro _
  · intro d sp o ho
    have key : ∀ sp, (P.len >>= fun n =>
          P.opt (has7thBit fl) (UserPlaneIPResourceInformation.at_ n >>= fun x => pure (x &&& 0x0f)) 0 >>= fun si =>
          P.need (if has7thBit fl then n - 1 else n) >>= fun _ =>
          UserPlaneIPResourceInformation.upTo (if has7thBit fl then n - 1 else n) >>= fun ni =>
          (pure ⟨fl, tr, v4, v6, ni, si⟩ : P UserPlaneIPResourceInformation)) ⟨d, sp⟩ o =
        if has7thBit fl then .panic else if o = 0 then .ok (⟨fl, tr, v4, v6, d, 0⟩, 0)
        else .err .unexpectedEOF := by
      intro sp
      rw [P.bind_ok (a := d.length) (o' := o) (by rfl)]
      cases has7thBit fl
      · simp only [P.opt_false, P.bind_pure', Bool.false_eq_true, if_false]
        by_cases h0 : o = 0
        · subst h0
          rw [P.bind_ok (a := ()) (o' := 0) (by unfold P.need; exact if_neg (by simp)),
            P.bind_ok (a := d) (o' := 0) (by
              unfold UserPlaneIPResourceInformation.upTo
              rw [P.sub_data _ _ _ _ (Nat.zero_le _) (Nat.le_refl _)]
              simp)]
          rfl
        · rw [P.bind_err (e := .unexpectedEOF) (by unfold P.need; exact if_pos (by simp only; omega)), if_neg h0]
      · simp only [P.opt_true, if_true]
        apply P.bind_panic
        apply P.bind_panic
        unfold UserPlaneIPResourceInformation.at_ Slice.idx
        rw [List.getElem?_eq_none (Nat.le_refl _)]
        rfl
    refine ⟨fun sp' => (key sp).trans (key sp').symm, ?_⟩
    intro a o' h
    have h' := (key sp).symm.trans h
    cases hb : has7thBit fl
    · rw [hb] at h'
      simp only [Bool.false_eq_true, if_false] at h'
      split at h'
      · cases h'; omega
      · cases h'
    · rw [hb] at h'; cases h'
  · apply P.Loc.bind (m := 0) (P.Loc.opt (P.Loc.bind P.Loc.u8 fun _ => (P.Good.pure _ (Nat.le_refl _)).loc)
      (Nat.zero_le _))
    intro si
    exact (P.Good.pure _ (Nat.le_refl _)).loc
/-- C43 is false: no flags give an error. -/
theorem C43_UserPlaneIPResourceInformation_violated :
    UserPlaneIPResourceInformation.codec.marshal (UserPlaneIPResourceInformation.new 0 0 none none [] 0)
      = .err .unexpectedEOF := by decide
theorem C43_UserPlaneIPResourceInformation_partial (flags tr : UInt8) (v4 v6 : IP) (ni : Bytes) (si : UInt8)
    (h : UserPlaneIPResourceInformationArgs flags v4 v6)
    (hf : (∃ i, i < 5 ∧ bit flags i = true) ∨ bit flags 6 = true) :
    UserPlaneIPResourceInformation.codec.Builds (UserPlaneIPResourceInformation.new flags tr v4 v6 ni si) :=
  ⟨_, UserPlaneIPResourceInformation.emits _ (UserPlaneIPResourceInformation.new_eq h tr ni si).1
    (UserPlaneIPResourceInformation.new_len h tr ni si hf)⟩
/-- C53 is false: the spare bits beside the source interface are lost, and a value without fields is not encoded. -/
theorem C53_UserPlaneIPResourceInformation_violated :
    (UserPlaneIPResourceInformation.codec.parse ⟨[0x40, 0xf1], []⟩ = .ok ⟨0x40, 0, none, none, [], 1⟩ ∧
      UserPlaneIPResourceInformation.codec.marshal ⟨0x40, 0, none, none, [], 1⟩ = .ok [0x40, 1]) ∧
    (UserPlaneIPResourceInformation.codec.parse ⟨[0, 0], []⟩ = .ok ⟨0, 0, none, none, [], 0⟩ ∧
      UserPlaneIPResourceInformation.codec.marshal ⟨0, 0, none, none, [], 0⟩ = .err .unexpectedEOF) := by decide
/-- C53 up to those: with some field announced, the bytes are an encoding of the value with the spare bits of the
source interface put back. -/
theorem C53_UserPlaneIPResourceInformation_partial (s : Slice) (v : UserPlaneIPResourceInformation)
    (h : UserPlaneIPResourceInformation.codec.parse s = .ok v)
    (hf : (∃ i, i < 5 ∧ bit v.flags i = true) ∨ bit v.flags 6 = true) :
    ∃ x w post, v.si = (if bit v.flags 6 then x &&& 0x0f else 0) ∧
      UserPlaneIPResourceInformation.codec.marshal { v with si := x } = .ok w ∧ s.data = w ++ post := by
  obtain ⟨f, rest, e, hfl, h6⟩ := UserPlaneIPResourceInformation.parse_ni s v h
  obtain ⟨w, post, e', hw, _⟩ := UserPlaneIPResourceInformation.takes s v h
  obtain ⟨x, hs, rfl, ha⟩ := hw (by rw [hfl]; exact h6)
  refine ⟨x, _, post, by rw [← has7thBit_eq]; exact hs, ?_, e'⟩
  have ha' : UserPlaneIPResourceInformation.Agree { v with si := x } := ha
  refine UserPlaneIPResourceInformation.emits _ ha' ?_
  rw [UserPlaneIPResourceInformation.enc_length _ ha']
  unfold UserPlaneIPResourceInformation.marshalLen
  simp only [has1stBit_eq, has2ndBit_eq, has6thBit_eq, has7thBit_eq, UserPlaneIPResourceInformation.hasTEIDRI_eq]
  have : bit v.flags 0 = true ∨ bit v.flags 1 = true ∨ bit v.flags 2 = true ∨ bit v.flags 3 = true ∨
      bit v.flags 4 = true ∨ bit v.flags 6 = true := by
    rcases hf with ⟨i, hi, hb⟩ | hb
    · have : i = 0 ∨ i = 1 ∨ i = 2 ∨ i = 3 ∨ i = 4 := by omega
      rcases this with rfl | rfl | rfl | rfl | rfl <;> simp [hb]
    · simp [hb]
  rcases this with hb | hb | hb | hb | hb | hb <;>
    simp only [hb, Bool.or_true, Bool.true_or, if_true] <;> (repeat' split) <;> omega

example : UserPlaneIPResourceInformationArgs 0x41 (some [1, 2, 3, 4]) none := by
  refine ⟨fun _ => ⟨rfl, ?_⟩, fun h => absurd h (by decide)⟩
  intro a h; cases h; left; rfl
example : UserPlaneIPResourceInformation.codec.parse ⟨[0x41, 1, 2, 3, 4, 2], []⟩
    = .ok ⟨0x41, 0, some [1, 2, 3, 4], none, [], 2⟩ := by decide

end Fields
end Pfcp
