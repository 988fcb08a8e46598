/- Property theorems C40-C43, C52, C53 for OuterHeaderCreation. -/
import Verif.Fields.Misc2

namespace Pfcp
namespace Fields

/-! ### OuterHeaderCreation

The description is stated bit by bit, numbered from the least significant bit of the 16-bit number: 8 and 9 GTP-U over
IPv4 and IPv6, 10 and 11 UDP over IPv4 and IPv6, 12 and 13 plain IPv4 and IPv6, 14 C-TAG, 15 S-TAG
(TS 29.244 table 8.2.56-1). -/

/-- Bit `i` of a 16-bit number. -/
def bit16 (d : UInt16) (i : Nat) : Bool := d.toNat.testBit i

namespace OuterHeaderCreation

theorem octets_toNat (d : UInt16) : (hiOctet d).toNat = d.toNat / 2 ^ 8 ∧ (loOctet d).toNat = d.toNat % 2 ^ 8 := by
  have h := d.toNat_lt
  have e := be16_eq d
  have e1 : be16 d = [UInt8.ofNat (d.toNat / 256 ^ 1), UInt8.ofNat (d.toNat / 256 ^ 0)] := rfl
  rw [e1] at e
  simp only [List.cons.injEq, and_true] at e
  rw [← e.1, ← e.2, UInt8.toNat_ofNat', UInt8.toNat_ofNat']
  omega

theorem hi_bit (d : UInt16) (i : Nat) : bit (hiOctet d) i = bit16 d (8 + i) := by
  unfold bit bit16
  rw [(octets_toNat d).1, Nat.testBit_div_two_pow, Nat.add_comm]

theorem lo_bit (d : UInt16) (i : Nat) (h : i < 8) : bit (loOctet d) i = bit16 d i := by
  unfold bit bit16
  rw [(octets_toNat d).2, Nat.testBit_mod_two_pow]
  simp [h]

end OuterHeaderCreation

/-- Which fields the description announces. -/
def OHCTeid (d : UInt16) : Bool := bit16 d 8 || bit16 d 9
def OHCV4 (d : UInt16) : Bool := bit16 d 8 || bit16 d 10 || bit16 d 12
def OHCV6 (d : UInt16) : Bool := bit16 d 9 || bit16 d 11 || bit16 d 13
def OHCPort (d : UInt16) : Bool := bit16 d 10 || bit16 d 11

namespace OuterHeaderCreation
theorem has_eq (d : UInt16) : hasTEID (hiOctet d) = OHCTeid d ∧ hasIPv4 (hiOctet d) = OHCV4 d ∧
    hasIPv6 (hiOctet d) = OHCV6 d ∧ hasPort (hiOctet d) = OHCPort d ∧ hasCTag (hiOctet d) = bit16 d 14 ∧
    hasSTag (hiOctet d) = bit16 d 15 := by
  unfold hasTEID hasIPv4 hasIPv6 hasPort hasCTag hasSTag OHCTeid OHCV4 OHCV6 OHCPort
  simp only [has1stBit_eq, has2ndBit_eq, has3rdBit_eq, has4thBit_eq, has5thBit_eq, has6thBit_eq, has7thBit_eq,
    has8thBit_eq, hi_bit]
  exact ⟨trivial, trivial, trivial, trivial, trivial, trivial⟩
theorem lo_eq (d : UInt16) : has7thBit (loOctet d) = bit16 d 6 ∧ has8thBit (loOctet d) = bit16 d 7 := by
  rw [has7thBit_eq, has8thBit_eq, lo_bit _ _ (by omega), lo_bit _ _ (by omega)]
  exact ⟨rfl, rfl⟩
end OuterHeaderCreation

/-- Announced addresses are given and of the right family. -/
def OHCArgs (d : UInt16) (v4 v6 : IP) : Prop :=
  (OHCV4 d = true → v4.isSome = true ∧ v4.Is4) ∧ (OHCV6 d = true → v6.isSome = true ∧ v6.Is16)

theorem OuterHeaderCreation.new_eq {d : UInt16} {v4 v6 : IP} (h : OHCArgs d v4 v6) (teid : UInt32) (port : UInt16)
    (ctag stag : UInt32) :
    (OuterHeaderCreation.new d teid v4 v6 port ctag stag).Agree ∧
    OuterHeaderCreation.new d teid v4 v6 port ctag stag = ⟨d, if OHCTeid d then teid else 0,
      if OHCV4 d then v4.as4 else none, if OHCV6 d then v6.as16 else none, if OHCPort d then port else 0,
      if bit16 d 14 then ctag else 0, if bit16 d 15 then stag else 0⟩ := by
  obtain ⟨e1, e2, e3, e4, e5, e6⟩ := OuterHeaderCreation.has_eq d
  unfold OuterHeaderCreation.new OuterHeaderCreation.Agree
  simp only [e1, e2, e3, e4, e5, e6]
  refine ⟨⟨?_, ?_⟩, ?_⟩
  · cases hc : OHCV4 d
    · exact ⟨rfl, by intro a h; cases h⟩
    · simp only [if_true]
      rw [IP.conv4_eq (h.1 hc).2]
      exact ⟨by rw [IP.as4_isSome, (h.1 hc).1], IP.as4_len (h.1 hc).2⟩
  · cases hc : OHCV6 d
    · exact ⟨rfl, by intro a h; cases h⟩
    · simp only [if_true]
      rw [IP.conv16_eq (h.2 hc).2]
      exact ⟨by rw [IP.as16_isSome, (h.2 hc).1], IP.as16_len (h.2 hc).2⟩
  · have c4 : (if OHCV4 d = true then v4.conv4 else none) = if OHCV4 d = true then v4.as4 else none := by
      split
      · rename_i hc; rw [IP.conv4_eq (h.1 hc).2]
      · rfl
    have c6 : (if OHCV6 d = true then v6.conv16 else none) = if OHCV6 d = true then v6.as16 else none := by
      split
      · rename_i hc; rw [IP.conv16_eq (h.2 hc).2]
      · rfl
    rw [c4, c6]

/-- The three octets of a tag. -/
theorem OuterHeaderCreation.tag24_eq (t : UInt32) : OuterHeaderCreation.tag24 t = beBytes 3 t.toNat := rfl

/-- C52, unless a port number comes together with a tag. -/
theorem C52_OuterHeaderCreation_partial (d : UInt16) (teid : UInt32) (v4 v6 : IP) (port : UInt16) (ctag stag : UInt32)
    (h : OHCArgs d v4 v6) (hp : OHCPort d = true → bit16 d 14 = false ∧ bit16 d 15 = false) :
    OuterHeaderCreation.codec.Encodes (OuterHeaderCreation.new d teid v4 v6 port ctag stag)
      (be16 d ++ (if OHCTeid d then be32 teid else []) ++ (if OHCV4 d then wire4 v4 else []) ++
        (if OHCV6 d then wire16 v6 else []) ++ (if OHCPort d then be16 port else []) ++
        (if bit16 d 14 then beBytes 3 ctag.toNat else []) ++ (if bit16 d 15 then beBytes 3 stag.toNat else [])) := by
  obtain ⟨ha, e⟩ := OuterHeaderCreation.new_eq h teid port ctag stag
  obtain ⟨e1, e2, e3, e4, e5, e6⟩ := OuterHeaderCreation.has_eq d
  unfold Codec.Encodes
  rw [OuterHeaderCreation.emits _ ha, e]
  simp only [OuterHeaderCreation.enc, OuterHeaderCreation.head, OuterHeaderCreation.tail, e1, e2, e3, e4, e5, e6,
    OuterHeaderCreation.tag24_eq]
  rw [← IP.as4_val, ← IP.as16_val]
  cases hpd : OHCPort d
  · cases OHCTeid d <;> cases OHCV4 d <;> cases OHCV6 d <;> cases bit16 d 14 <;> cases bit16 d 15 <;> simp [IP.val]
  · rw [(hp hpd).1, (hp hpd).2]
    cases OHCTeid d <;> cases OHCV4 d <;> cases OHCV6 d <;> simp [IP.val]

/-- C52 is false for a port number with a tag: the tag overwrites the port, two zero octets follow. -/
theorem C52_OuterHeaderCreation_violated (a : Bytes) (port : UInt16) (ctag : UInt32) (h : a.length = 4) :
    OuterHeaderCreation.codec.Encodes (OuterHeaderCreation.new 0x4400 0 (some a) none port ctag 0)
      ([0x44, 0] ++ a ++ beBytes 3 ctag.toNat ++ [0, 0]) := by
  have hA : OHCArgs 0x4400 (some a) none := by
    refine ⟨fun _ => ⟨rfl, ?_⟩, fun hc => absurd hc (by decide)⟩
    intro b hb; cases hb; exact Or.inl h
  obtain ⟨ha, e⟩ := OuterHeaderCreation.new_eq hA 0 port ctag 0
  obtain ⟨e1, e2, e3, e4, e5, e6⟩ := OuterHeaderCreation.has_eq 0x4400
  unfold Codec.Encodes
  rw [OuterHeaderCreation.emits _ ha, e]
  simp only [OuterHeaderCreation.enc, OuterHeaderCreation.head, OuterHeaderCreation.tail, e1, e2, e3, e4, e5, e6,
    OuterHeaderCreation.tag24_eq]
  rw [show OHCTeid 0x4400 = false by decide, show OHCV4 0x4400 = true by decide, show OHCV6 0x4400 = false by decide,
    show OHCPort 0x4400 = true by decide, show bit16 0x4400 14 = true by decide,
    show bit16 0x4400 15 = false by decide, show be16 0x4400 = [0x44, 0] by decide]
  simp [IP.val, IP.as4, to4, h]

/-- C40, for descriptions without tags and without bits 6 and 7. -/
theorem C40_OuterHeaderCreation_partial (d : UInt16) (teid : UInt32) (v4 v6 : IP) (port : UInt16) (ctag stag : UInt32)
    (h : OHCArgs d v4 v6) (h14 : bit16 d 14 = false) (h15 : bit16 d 15 = false) (h6 : bit16 d 6 = false)
    (h7 : bit16 d 7 = false) :
    OuterHeaderCreation.codec.Yields (OuterHeaderCreation.new d teid v4 v6 port ctag stag)
      ⟨d, if OHCTeid d then teid else 0, if OHCV4 d then v4.as4 else none, if OHCV6 d then v6.as16 else none,
        if OHCPort d then port else 0, 0, 0⟩ := by
  obtain ⟨ha, e⟩ := OuterHeaderCreation.new_eq h teid port ctag stag
  obtain ⟨e1, e2, e3, e4, e5, e6⟩ := OuterHeaderCreation.has_eq d
  obtain ⟨l6, l7⟩ := OuterHeaderCreation.lo_eq d
  refine ⟨_, OuterHeaderCreation.emits _ ha, fun tail sp => ?_⟩
  rw [e] at ha ⊢
  have hr := OuterHeaderCreation.reads_body _ ha (l6.trans h6) (l7.trans h7)
  have hh := P.Reads.run_minLen (n := 2) (f := fun _ => OuterHeaderCreation.parseDesc >>= fun x =>
    OuterHeaderCreation.parseBody x.1 x.2) (by simp) (P.Reads.bind (OuterHeaderCreation.reads_desc d) hr) tail sp
  have he : ∀ x : OuterHeaderCreation, x.desc = d → x.enc = be16 d ++
      ((if OuterHeaderCreation.hasTEID (OuterHeaderCreation.hiOctet d) then be32 x.teid else []) ++ (x.v4.val ++
        (x.v6.val ++ ((if OuterHeaderCreation.hasPort (OuterHeaderCreation.hiOctet d) then be16 x.port else []) ++ [])))) := by
    intro x hx
    unfold OuterHeaderCreation.enc OuterHeaderCreation.head OuterHeaderCreation.tail
    rw [hx, e5, e6, h14, h15]
    simp
  rw [he _ rfl]
  refine hh.trans ?_
  simp only [e1, e4]
  cases OHCTeid d <;> cases OHCPort d <;> rfl

/-- C40 is false for tags: no element whatsoever is decoded to a value with a tag other than zero. -/
theorem C40_OuterHeaderCreation_violated (s : Slice) (v : OuterHeaderCreation)
    (h : OuterHeaderCreation.codec.parse s = .ok v) : v.ctag = 0 ∧ v.stag = 0 := by
  obtain ⟨_, _, _, _, h⟩ := OuterHeaderCreation.parse_body s v h
  obtain ⟨h1, h2, _⟩ := OuterHeaderCreation.body_no_tag _ _ _ _ _ _ h
  exact ⟨h1, h2⟩

/-- C40 is false for bits 6 and 7 of the description: no element is decoded to a value with one of them. -/
theorem C40_OuterHeaderCreation_low_violated (s : Slice) (v : OuterHeaderCreation)
    (h : OuterHeaderCreation.codec.parse s = .ok v) : bit16 v.desc 6 = false ∧ bit16 v.desc 7 = false := by
  obtain ⟨_, _, _, _, h⟩ := OuterHeaderCreation.parse_body s v h
  obtain ⟨_, _, h1, h2, e⟩ := OuterHeaderCreation.body_no_tag _ _ _ _ _ _ h
  obtain ⟨l6, l7⟩ := OuterHeaderCreation.lo_eq v.desc
  rw [← l6, ← l7, e]
  exact ⟨h1, h2⟩

/-- C41 is false: bit 6 or 7 in the second octet and three more octets. -/
theorem C41_OuterHeaderCreation_violated (b x y z : UInt8) (r sp : Bytes) (h : bit b 6 = true ∨ bit b 7 = true) :
    OuterHeaderCreation.codec.parse ⟨0 :: b :: x :: y :: z :: r, sp⟩ = .panic := by
  have ht : OuterHeaderCreation.parseTag ⟨0 :: b :: x :: y :: z :: r, sp⟩ 2 = .panic := by
    unfold OuterHeaderCreation.parseTag
    rw [P.bind_ok (a := ()) (o' := 2) (by unfold P.need; exact if_neg (by simp)), P.bind_ok (a := [x, y, z]) (o' := 5)]
    · rfl
    · unfold P.bytes
      rw [P.sub_data _ _ _ _ (by omega) (by simp)]
      rfl
  have hb : OuterHeaderCreation.parseBody 0 (dec16 [0, b]) ⟨0 :: b :: x :: y :: z :: r, sp⟩ 2 = .panic := by
    unfold OuterHeaderCreation.parseBody
    rw [(OuterHeaderCreation.octets 0 b).2, has7thBit_eq, has8thBit_eq]
    rw [show OuterHeaderCreation.hasTEID 0 = false by decide, show OuterHeaderCreation.hasIPv4 0 = false by decide,
      show OuterHeaderCreation.hasIPv6 0 = false by decide, show OuterHeaderCreation.hasPort 0 = false by decide]
    simp only [P.opt_false, P.bind_pure']
    cases h6 : bit b 6
    · have h7 : bit b 7 = true := by
        rcases h with h | h
        · rw [h] at h6; cases h6
        · exact h
      rw [h7, P.opt_false, P.bind_pure', P.opt_true]
      exact P.bind_panic ht
    · rw [P.opt_true]
      exact P.bind_panic ht
  rw [OuterHeaderCreation.run_body, hb]

/-- C41 for elements without bits 6 and 7 in their second octet. -/
theorem C41_OuterHeaderCreation_partial (s : Slice) (h : ∀ b, s.data[1]? = some b → bit b 6 = false ∧ bit b 7 = false) :
    OuterHeaderCreation.codec.parse s ≠ .panic := by
  obtain ⟨d, sp⟩ := s
  match d, h with
  | [], _ => intro h; cases h
  | [x], _ => intro h; cases h
  | x :: b :: r, h =>
    obtain ⟨h6, h7⟩ := h b rfl
    have hg := OuterHeaderCreation.good_body (k := 0) x (dec16 [x, b])
      (by rw [(OuterHeaderCreation.octets x b).2, has7thBit_eq]; exact h6)
      (by rw [(OuterHeaderCreation.octets x b).2, has8thBit_eq]; exact h7)
    obtain ⟨g1, _⟩ := hg (x :: b :: r) sp 2 (by simp)
    rw [OuterHeaderCreation.run_body]
    intro hr
    cases hx : OuterHeaderCreation.parseBody x (dec16 [x, b]) ⟨x :: b :: r, sp⟩ 2 with
    | panic => exact g1 hx
    | err e => simp only [hx] at hr; cases hr
    | ok r => simp only [hx] at hr; cases hr

theorem C42_OuterHeaderCreation : OuterHeaderCreation.codec.Local := OuterHeaderCreation.loc

theorem C43_OuterHeaderCreation (d : UInt16) (teid : UInt32) (v4 v6 : IP) (port : UInt16) (ctag stag : UInt32)
    (h : OHCArgs d v4 v6) : OuterHeaderCreation.codec.Builds (OuterHeaderCreation.new d teid v4 v6 port ctag stag) :=
  ⟨_, OuterHeaderCreation.emits _ (OuterHeaderCreation.new_eq h teid port ctag stag).1⟩

/-- C53 is false: the tag of an accepted element is re-encoded as zero. -/
theorem C53_OuterHeaderCreation_violated :
    OuterHeaderCreation.codec.parse ⟨[0x40, 0, 1, 2, 3], []⟩ = .ok ⟨0x4000, 0, none, none, 0, 0, 0⟩ ∧
    OuterHeaderCreation.codec.marshal ⟨0x4000, 0, none, none, 0, 0, 0⟩ = .ok [0x40, 0, 0, 0, 0] := by decide

/-- C53 for elements without the tag bits. -/
theorem C53_OuterHeaderCreation_partial (s : Slice) (v : OuterHeaderCreation)
    (h : OuterHeaderCreation.codec.parse s = .ok v) (h14 : bit16 v.desc 14 = false) (h15 : bit16 v.desc 15 = false) :
    ∃ w post, OuterHeaderCreation.codec.marshal v = .ok w ∧ s.data = w ++ post := by
  have ht := P.Takes.run' (m := 0) (n := 2) (f := fun _ => OuterHeaderCreation.parseDesc >>= fun x =>
    OuterHeaderCreation.parseBody x.1 x.2) (R := fun v w => v.Agree ∧ w = be16 v.desc ++
      ((if OuterHeaderCreation.hasTEID (OuterHeaderCreation.hiOctet v.desc) then be32 v.teid else []) ++ (v.v4.val ++
        (v.v6.val ++ ((if OuterHeaderCreation.hasPort (OuterHeaderCreation.hiOctet v.desc) then be16 v.port else [])
          ++ []))))) ?_ s v h
  · obtain ⟨w, post, e, ⟨ha, hw⟩, _⟩ := ht
    refine ⟨_, post, OuterHeaderCreation.emits v ha, ?_⟩
    rw [e, hw]
    unfold OuterHeaderCreation.enc OuterHeaderCreation.head OuterHeaderCreation.tail
    obtain ⟨_, _, _, _, e5, e6⟩ := OuterHeaderCreation.has_eq v.desc
    rw [e5, e6, h14, h15]
    simp
  · have hb : ∀ x : UInt8 × UInt16, P.Takes 0 (OuterHeaderCreation.parseBody x.1 x.2) 0
        (fun v w => x.1 = OuterHeaderCreation.hiOctet x.2 → v.desc = x.2 ∧ v.Agree ∧
          w = (if OuterHeaderCreation.hasTEID (OuterHeaderCreation.hiOctet v.desc) then be32 v.teid else []) ++
            (v.v4.val ++ (v.v6.val ++
            ((if OuterHeaderCreation.hasPort (OuterHeaderCreation.hiOctet v.desc) then be16 v.port else []) ++ [])))) := by
      intro x
      by_cases hx : x.1 = OuterHeaderCreation.hiOctet x.2
      · rw [hx]
        refine (OuterHeaderCreation.takes_body x.2).weaken ?_
        rintro v w ⟨h1, h2, h3⟩ _
        refine ⟨h1, h3, ?_⟩
        rw [h1]
        exact h2
      · have hl := OuterHeaderCreation.takes_any (k := 0) x.1 x.2
        exact hl.weaken fun v w _ h => absurd h hx
    refine (P.Takes.bind OuterHeaderCreation.takes_desc hb).weaken ?_
    rintro v w ⟨x, w1, w2, ⟨rfl, hx⟩, h2, rfl⟩
    obtain ⟨h3, h4, h5⟩ := h2 hx
    refine ⟨h4, ?_⟩
    rw [h5, h3]

example : OuterHeaderCreation.codec.parse ⟨[1, 0, 0, 0, 0, 9, 192, 0, 2, 1], []⟩
    = .ok ⟨0x100, 9, some [192, 0, 2, 1], none, 0, 0, 0⟩ := by decide
example : OHCArgs 0x100 (some [192, 0, 2, 1]) none :=
  ⟨fun _ => ⟨rfl, fun _ h => by cases h; exact Or.inl rfl⟩, fun h => absurd h (by decide)⟩

end Fields
end Pfcp
