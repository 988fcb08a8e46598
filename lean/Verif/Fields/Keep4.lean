/- Property C80, continued: PMFAddressInformation, RedirectInformation, MACAddressesDetected, MACAddressesRemoved,
OuterHeaderCreation. -/
import Verif.Fields.Keep3
import Verif.Fields.Props4
import Verif.Fields.Props5
import Verif.Fields.Props6

namespace Pfcp
namespace Fields

/-! ### PMFAddressInformation -/

/-- C80. The decoder drops both MAC addresses, so that they must be absent. -/
theorem C80_PMFAddressInformation (v : PMFAddressInformation) : PMFAddressInformation.codec.Keeps v ↔
    Announced (bit v.flags 0) 4 v.v4 ∧ Announced (bit v.flags 1) 16 v.v6 ∧ v.mac1 = none ∧ v.mac2 = none := by
  rw [keeps_iff (R := v.Agree ∧ v.mac1 = none ∧ v.mac2 = none) (e := v.enc)
    (v' := ⟨v.flags, v.v4.as4, v.v6.as16, v.port1, v.port2, none, none⟩)]
  · obtain ⟨fl, v4, v6, p1, p2, m1, m2⟩ := v
    simp only [PMFAddressInformation.Agree, PMFAddressInformation.mk.injEq, true_and]
    rw [← announced4, ← announced16, show PMFAddressInformation.hasIPv4 fl = bit fl 0 from has1stBit_eq fl,
      show PMFAddressInformation.hasIPv6 fl = bit fl 1 from has2ndBit_eq fl]
    constructor
    · rintro ⟨⟨⟨h1, h2, h3, h4⟩, h5, h6⟩, h7, h8, h9, h10⟩
      exact ⟨⟨h1, h7⟩, ⟨h2, h8⟩, h5, h6⟩
    · rintro ⟨⟨h1, h7⟩, ⟨h2, h8⟩, rfl, rfl⟩
      exact ⟨⟨⟨h1, h2, by simp [IP.val], by simp [IP.val]⟩, rfl, rfl⟩, h7, h8, rfl, rfl⟩
  · intro w _ hp
    obtain ⟨_, _, _, _, h⟩ := PMFAddressInformation.takes _ _ hp
    exact h
  · rintro ⟨h, _⟩
    exact ⟨PMFAddressInformation.emits v h, fun sp => by simpa using PMFAddressInformation.reads v h [] sp⟩

example : PMFAddressInformation.codec.Keeps ⟨1, some [10, 0, 0, 1], none, 5, 6, none, none⟩ :=
  (C80_PMFAddressInformation _).2 ⟨⟨_, rfl, rfl⟩, rfl, rfl, rfl⟩
example : ¬ PMFAddressInformation.codec.Keeps ⟨0, none, none, 5, 6, some [1, 2, 3, 4, 5, 6], none⟩ := fun h => by
  obtain ⟨_, _, h, _⟩ := (C80_PMFAddressInformation _).1 h
  cases h

/-! ### RedirectInformation -/

/-- C80. The other address is read from two octets behind the start of the first one, with the length of the first one:
only the values that agree with this come back. -/
theorem C80_RedirectInformation (v : RedirectInformation) : RedirectInformation.codec.Keeps v ↔
    v.addr1.length = v.len1.toNat ∧ v.len2 = v.len1 ∧ v.addr2 = (v.addr1 ++ be16 v.len1).drop 2 := by
  rw [keeps_iff (R := v.Agree ∧ v.len2 = v.len1) (e := v.enc)
    (v' := ⟨v.typ, v.len1, v.addr1, v.len1, (v.addr1 ++ be16 v.len1).drop 2⟩)]
  · obtain ⟨t, l1, a1, l2, a2⟩ := v
    simp only [RedirectInformation.Agree, RedirectInformation.mk.injEq, true_and]
    constructor
    · rintro ⟨⟨⟨h1, h2⟩, rfl⟩, _, h3⟩
      exact ⟨h1, rfl, h3.symm⟩
    · rintro ⟨h1, rfl, rfl⟩
      exact ⟨⟨⟨h1, by simp [h1]⟩, rfl⟩, rfl, rfl⟩
  · intro w _ hp
    have hl := run_minLen_ok (n := 3) hp
    obtain ⟨t, x, y, r, rfl⟩ : ∃ t x y r, w = t :: x :: y :: r := by
      match w, hl with
      | t :: x :: y :: r, _ => exact ⟨t, x, y, r, rfl⟩
    have e : t :: x :: y :: r = t :: (be16 (dec16 [x, y]) ++ r) := by rw [be16_dec16 _ rfl]; rfl
    rw [e, RedirectInformation.parse_eq] at hp
    generalize dec16 [x, y] = n at hp
    split at hp
    · cases hp
    · split at hp
      · cases hp; exact ⟨⟨rfl, rfl⟩, rfl⟩
      · split at hp
        · cases hp
        · cases hp
          exact ⟨⟨by simp; omega, by simp; omega⟩, rfl⟩
  · rintro ⟨h, h2⟩
    refine ⟨RedirectInformation.emits v h, fun sp => ?_⟩
    obtain ⟨t, l1, a1, l2, a2⟩ := v
    obtain ⟨h3, h4⟩ := h
    simp only at h2 h3 h4
    subst h2
    show RedirectInformation.codec.parse ⟨t :: (be16 l2 ++ (a1 ++ (be16 l2 ++ a2))), sp⟩ = _
    rw [RedirectInformation.parse_eq, if_neg (by simp; omega)]
    by_cases h0 : l2 = 0
    · subst h0
      have := List.length_eq_zero_iff.1 h3
      subst this
      rw [if_pos rfl]
      rfl
    · rw [if_neg h0, if_neg (by simp; omega)]
      simp only [Res.ok.injEq, RedirectInformation.mk.injEq, true_and]
      refine ⟨by rw [← h3]; exact List.take_left' rfl, ?_⟩
      rw [← List.append_assoc a1, List.drop_append_of_le_length (by simp)]
      exact List.take_left' (by simp [h3])

example : RedirectInformation.codec.Keeps ⟨1, 3, [65, 66, 67], 3, [67, 0, 3]⟩ := by
  rw [C80_RedirectInformation]; decide
example : ¬ RedirectInformation.codec.Keeps ⟨1, 3, [65, 66, 67], 0, []⟩ := by
  rw [C80_RedirectInformation]; decide

/-! ### MACAddressesDetected and MACAddressesRemoved -/

/-- C80 is false throughout: no value comes back, since the encoder panics on everything the decoder returns. -/
theorem C80_MACAddresses_violated (v : MACAddresses) : ¬ MACAddresses.codec.Keeps v := by
  rintro ⟨w, hm, hp⟩
  rw [C53_MACAddresses_violated _ v (hp [])] at hm
  cases hm

example : ∃ v w, MACAddresses.codec.marshal v = .ok w ∧ w ≠ [] := ⟨⟨1, [[1, 2, 3, 4, 5, 6]], 0, [], 0, []⟩,
  [1, 1, 2, 3, 4, 5, 6, 0, 0], by decide, by decide⟩

/-! ### OuterHeaderCreation -/

/-- C80. No tags and no bits 6 and 7; what is not announced must be absent; and a description that announces tags, which
are written over the port, requires that the port be 0. -/
theorem C80_OuterHeaderCreation (v : OuterHeaderCreation) : OuterHeaderCreation.codec.Keeps v ↔
    Announced (OHCV4 v.desc) 4 v.v4 ∧ Announced (OHCV6 v.desc) 16 v.v6 ∧
    bit16 v.desc 6 = false ∧ bit16 v.desc 7 = false ∧ v.ctag = 0 ∧ v.stag = 0 ∧
    (OHCTeid v.desc = false → v.teid = 0) ∧
    (OHCPort v.desc = false ∨ bit16 v.desc 14 = true ∨ bit16 v.desc 15 = true → v.port = 0) := by
  obtain ⟨e1, e2, e3, e4, e5, e6⟩ := OuterHeaderCreation.has_eq v.desc
  obtain ⟨l6, l7⟩ := OuterHeaderCreation.lo_eq v.desc
  rw [keeps_iff (R := v.Agree ∧ bit16 v.desc 6 = false ∧ bit16 v.desc 7 = false ∧ v.ctag = 0 ∧ v.stag = 0) (e := v.enc)
    (v' := ⟨v.desc, if OHCTeid v.desc then v.teid else 0, v.v4, v.v6,
      if OHCPort v.desc && !bit16 v.desc 14 && !bit16 v.desc 15 then v.port else 0, 0, 0⟩)]
  · obtain ⟨d, teid, v4, v6, port, ct, st⟩ := v
    simp only at e1 e2 e3 e4 e5 e6 l6 l7
    simp only [OuterHeaderCreation.Agree, e2, e3, OuterHeaderCreation.mk.injEq, true_and, announced_raw, ite_self_iff]
    generalize OHCPort d = p
    generalize bit16 d 14 = b14
    generalize bit16 d 15 = b15
    constructor
    · rintro ⟨⟨⟨h1, h2⟩, h3, h4, rfl, rfl⟩, h5, h6, _⟩
      refine ⟨h1, h2, h3, h4, rfl, rfl, h5, fun hc => h6 ?_⟩
      rcases hc with rfl | rfl | rfl <;> simp
    · rintro ⟨h1, h2, h3, h4, rfl, rfl, h5, h6⟩
      refine ⟨⟨⟨h1, h2⟩, h3, h4, rfl, rfl⟩, h5, fun hc => h6 ?_, rfl, rfl⟩
      cases p <;> cases b14 <;> cases b15 <;> simp at hc ⊢
  · intro w _ hp
    have hl := run_minLen_ok (n := 2) hp
    obtain ⟨x, y, r, rfl⟩ : ∃ x y r, w = x :: y :: r := by
      match w, hl with
      | x :: y :: r, _ => exact ⟨x, y, r, rfl⟩
    rw [OuterHeaderCreation.run_body] at hp
    split at hp
    · rename_i a n' hb
      cases hp
      obtain ⟨h1, h2, h7, h8, hd⟩ := OuterHeaderCreation.body_no_tag _ _ _ _ _ _ hb
      rw [← hd] at h7 h8
      have hx := (OuterHeaderCreation.octets x y).1
      have ht := OuterHeaderCreation.takes_body (k := 0) (dec16 [x, y])
      rw [hx] at ht
      obtain ⟨_, _, _, _, ⟨_, _, ha⟩, _⟩ := ht _ _ _ _ _ (by simp) hb
      exact ⟨ha, l6 ▸ h7, l7 ▸ h8, h1, h2⟩
    · cases hp
    · cases hp
  · rintro ⟨ha, h6, h7, hc, hs⟩
    refine ⟨OuterHeaderCreation.emits v ha, fun sp => ?_⟩
    have hr := OuterHeaderCreation.reads_body { v with port := if OHCPort v.desc && !bit16 v.desc 14 && !bit16 v.desc 15
      then v.port else 0 } ha (l6.trans h6) (l7.trans h7)
    obtain ⟨rest, he⟩ : ∃ rest, v.enc = be16 v.desc ++
        ((if OuterHeaderCreation.hasTEID (OuterHeaderCreation.hiOctet v.desc) then be32 v.teid else []) ++ (v.v4.val ++
        (v.v6.val ++ ((if OuterHeaderCreation.hasPort (OuterHeaderCreation.hiOctet v.desc) then
          be16 (if OHCPort v.desc && !bit16 v.desc 14 && !bit16 v.desc 15 then v.port else 0) else []) ++ [])))) ++ rest := by
      have ht : ∃ rest, v.tail = (if OuterHeaderCreation.hasPort (OuterHeaderCreation.hiOctet v.desc) then
          be16 (if OHCPort v.desc && !bit16 v.desc 14 && !bit16 v.desc 15 then v.port else 0) else []) ++ rest := by
        unfold OuterHeaderCreation.tail
        rw [e4, e5, e6, hc, hs]
        cases OHCPort v.desc <;> cases bit16 v.desc 14 <;> cases bit16 v.desc 15
        · exact ⟨_, rfl⟩
        · exact ⟨_, rfl⟩
        · exact ⟨_, rfl⟩
        · exact ⟨_, rfl⟩
        · exact ⟨[], (List.append_nil _).symm⟩
        · exact ⟨[0, 0, 0], by simp; decide⟩
        · exact ⟨[0, 0, 0], by simp; decide⟩
        · exact ⟨[0, 0, 0, 0, 0, 0], by simp; decide⟩
      obtain ⟨rest, ht⟩ := ht
      refine ⟨rest, ?_⟩
      unfold OuterHeaderCreation.enc OuterHeaderCreation.head
      rw [ht]
      simp
    have hh := P.Reads.run_minLen (n := 2) (f := fun _ => OuterHeaderCreation.parseDesc >>= fun x =>
      OuterHeaderCreation.parseBody x.1 x.2) (by simp)
      (P.Reads.bind (OuterHeaderCreation.reads_desc v.desc) hr) rest sp
    rw [he]
    refine hh.trans ?_
    rw [e1, e4, hc, hs]
    cases OHCPort v.desc <;> simp

example : OuterHeaderCreation.codec.Keeps ⟨0x0100, 7, some [10, 0, 0, 1], none, 0, 0, 0⟩ :=
  (C80_OuterHeaderCreation _).2 ⟨⟨_, rfl, rfl⟩, rfl, by decide, by decide, rfl, rfl, by decide, by decide⟩
example : ¬ OuterHeaderCreation.codec.Keeps ⟨0x0100, 7, some [10, 0, 0, 1], none, 0, 9, 0⟩ := fun h => by
  obtain ⟨_, _, _, _, h, _⟩ := (C80_OuterHeaderCreation _).1 h
  exact absurd h (by decide)

end Fields
end Pfcp
