/- Property theorems C40-C43, C52, C53 for PMFAddressInformation, RedirectInformation, UserID. -/
import Verif.Fields.Misc3

namespace Pfcp
namespace Fields

/-! ### PMFAddressInformation -/

theorem PMFAddressInformation.new_agree {v4 v6 m1 m2 : IP} (h4 : v4.Is4) (h6 : v6.Is16) (h1 : m1.Len 6) (h2 : m2.Len 6)
    (p1 p2 : UInt16) : (PMFAddressInformation.new v4 v6 p1 p2 m1 m2).Agree := by
  have hm : ∀ {m : IP}, m.Len 6 → m.val.length ≤ 6 := by
    intro m h
    rw [h.val]
    split <;> omega
  refine ⟨⟨?_, h4⟩, ⟨?_, h6⟩, hm h1, hm h2⟩
  · cases v4 <;> cases v6 <;> simp [PMFAddressInformation.new, PMFAddressInformation.hasIPv4] <;> decide
  · cases v4 <;> cases v6 <;> simp [PMFAddressInformation.new, PMFAddressInformation.hasIPv6] <;> decide

/-- C52. Flags, the addresses given, two ports, two MAC addresses (zeros if absent). -/
theorem C52_PMFAddressInformation (v4 v6 : IP) (p1 p2 : UInt16) (m1 m2 : IP) (h4 : v4.Is4) (h6 : v6.Is16)
    (h1 : m1.Len 6) (h2 : m2.Len 6) :
    PMFAddressInformation.codec.Encodes (PMFAddressInformation.new v4 v6 p1 p2 m1 m2)
      ([(if v4.isSome then 1 else 0) + (if v6.isSome then 2 else 0)] ++ wire4 v4 ++ wire16 v6 ++ be16 p1 ++ be16 p2 ++
        m1.getD [0, 0, 0, 0, 0, 0] ++ m2.getD [0, 0, 0, 0, 0, 0]) := by
  have hm : ∀ {m : IP}, m.Len 6 → PMFAddressInformation.mac6 m = m.getD [0, 0, 0, 0, 0, 0] := by
    intro m h
    cases m with
    | none => rfl
    | some a =>
      have := h a rfl
      simp [PMFAddressInformation.mac6, IP.val, this]
  unfold Codec.Encodes
  rw [PMFAddressInformation.emits _ (PMFAddressInformation.new_agree h4 h6 h1 h2 p1 p2)]
  unfold PMFAddressInformation.enc PMFAddressInformation.new
  rw [hm h1, hm h2]
  cases v4 <;> cases v6 <;> simp [wire4, wire16] <;> decide

/-- C40 without MAC addresses. -/
theorem C40_PMFAddressInformation_partial (v4 v6 : IP) (p1 p2 : UInt16) (h4 : v4.Is4) (h6 : v6.Is16) :
    PMFAddressInformation.codec.Yields (PMFAddressInformation.new v4 v6 p1 p2 none none)
      ⟨(if v4.isSome then 1 else 0) + (if v6.isSome then 2 else 0), v4.as4, v6.as16, p1, p2, none, none⟩ := by
  have ha := PMFAddressInformation.new_agree (m1 := none) (m2 := none) h4 h6 (fun a h => by cases h)
    (fun a h => by cases h) p1 p2
  refine ⟨_, PMFAddressInformation.emits _ ha, fun tail sp => ?_⟩
  rw [PMFAddressInformation.reads _ ha]
  unfold PMFAddressInformation.new
  cases v4 <;> cases v6 <;> simp <;> decide

/-- C40 is false: no element is decoded to a value with a MAC address. -/
theorem C40_PMFAddressInformation_violated (s : Slice) (v : PMFAddressInformation)
    (h : PMFAddressInformation.codec.parse s = .ok v) : v.mac1 = none ∧ v.mac2 = none := by
  obtain ⟨_, _, _, _, _, h1, h2⟩ := PMFAddressInformation.takes s v h
  exact ⟨h1, h2⟩

theorem C41_PMFAddressInformation : PMFAddressInformation.codec.NoPanic := PMFAddressInformation.good.run.1
theorem C42_PMFAddressInformation : PMFAddressInformation.codec.Local := PMFAddressInformation.good.run.2
theorem C43_PMFAddressInformation (v4 v6 : IP) (p1 p2 : UInt16) (m1 m2 : IP) (h4 : v4.Is4) (h6 : v6.Is16)
    (h1 : m1.Len 6) (h2 : m2.Len 6) :
    PMFAddressInformation.codec.Builds (PMFAddressInformation.new v4 v6 p1 p2 m1 m2) :=
  ⟨_, C52_PMFAddressInformation v4 v6 p1 p2 m1 m2 h4 h6 h1 h2⟩

/-- C53 is false: the MAC addresses are re-encoded as zeros. -/
theorem C53_PMFAddressInformation_violated : ∃ v,
    PMFAddressInformation.codec.parse ⟨[0, 0, 1, 0, 2, 1, 2, 3, 4, 5, 6, 1, 2, 3, 4, 5, 6], []⟩ = .ok v ∧
    PMFAddressInformation.codec.marshal v = .ok [0, 0, 1, 0, 2, 0, 0, 0, 0, 0, 0, 0, 0, 0, 0, 0, 0] :=
  ⟨⟨0, none, none, 1, 2, none, none⟩, by decide, by decide⟩

/-- C53: only the last twelve octets change, to zeros. -/
theorem C53_PMFAddressInformation_partial (s : Slice) (v : PMFAddressInformation)
    (h : PMFAddressInformation.codec.parse s = .ok v) : ∃ front macs post, macs.length = 12 ∧
    s.data = front ++ macs ++ post ∧ PMFAddressInformation.codec.marshal v = .ok (front ++ List.replicate 12 0) := by
  obtain ⟨macs, post, e, hl, ha, h1, h2⟩ := PMFAddressInformation.takes s v h
  refine ⟨_, macs, post, hl, e, ?_⟩
  rw [PMFAddressInformation.emits v ha]
  unfold PMFAddressInformation.enc
  rw [h1, h2]
  simp [PMFAddressInformation.mac6, IP.val]

example : IP.Len 6 (some [1, 2, 3, 4, 5, 6]) := by intro a h; cases h; rfl

/-! ### RedirectInformation -/

/-- The two addresses that the constructor uses: the second one is empty unless given. -/
def redirectAddrs : List Bytes → Option (Bytes × Bytes)
  | [] => none
  | [a] => some (a, [])
  | a :: b :: _ => some (a, b)

theorem RedirectInformation.build_eq {addrs : List Bytes} {a b : Bytes} (h : redirectAddrs addrs = some (a, b))
    (ha : a.length < 65536) (hb : b.length < 65536) (typ : UInt8) :
    ∃ f : RedirectInformation, RedirectInformation.new typ addrs = some f ∧ f.Agree ∧
      f = ⟨typ, UInt16.ofNat a.length, a, UInt16.ofNat b.length, b⟩ := by
  have key : ∀ x : Bytes, x.length < 65536 → x.length = (UInt16.ofNat x.length).toNat := by
    intro x hx; rw [UInt16.toNat_ofNat']; omega
  match addrs, h with
  | [a], h =>
    cases h
    exact ⟨_, rfl, ⟨key a ha, rfl⟩, rfl⟩
  | a :: b :: r, h =>
    cases h
    exact ⟨_, rfl, ⟨key a ha, key b hb⟩, rfl⟩

/-- C52. Type, then both addresses behind their lengths. -/
theorem C52_RedirectInformation (typ : UInt8) (addrs : List Bytes) (a b : Bytes)
    (h : redirectAddrs addrs = some (a, b)) (ha : a.length < 65536) (hb : b.length < 65536) :
    RedirectInformation.build typ addrs
      = .ok ([typ] ++ be16 (UInt16.ofNat a.length) ++ a ++ be16 (UInt16.ofNat b.length) ++ b) := by
  obtain ⟨f, h1, h2, h3⟩ := RedirectInformation.build_eq h ha hb typ
  unfold RedirectInformation.build
  rw [h1]
  simp only
  rw [RedirectInformation.emits f h2, h3]
  simp [RedirectInformation.enc]

/-- C40. What always comes back is the type and the first address; instead of the second address one gets as many
octets as the first address has, from the third octet of the first address on. -/
theorem C40_RedirectInformation_partial (typ : UInt8) (addrs : List Bytes) (a b : Bytes)
    (h : redirectAddrs addrs = some (a, b)) (ha : a.length < 65536) (hb : b.length < 65536) (tail sp : Bytes) :
    ∃ w, RedirectInformation.build typ addrs = .ok w ∧ RedirectInformation.codec.parse ⟨w ++ tail, sp⟩
      = .ok ⟨typ, UInt16.ofNat a.length, a, UInt16.ofNat a.length,
          ((a ++ be16 (UInt16.ofNat b.length) ++ b ++ tail).drop 2).take a.length⟩ := by
  refine ⟨_, C52_RedirectInformation typ addrs a b h ha hb, ?_⟩
  have hn : (UInt16.ofNat a.length).toNat = a.length := by rw [UInt16.toNat_ofNat']; omega
  have e := RedirectInformation.parse_eq typ (UInt16.ofNat a.length) (a ++ be16 (UInt16.ofNat b.length) ++ b ++ tail) sp
  rw [show [typ] ++ be16 (UInt16.ofNat a.length) ++ a ++ be16 (UInt16.ofNat b.length) ++ b ++ tail
    = typ :: (be16 (UInt16.ofNat a.length) ++ (a ++ be16 (UInt16.ofNat b.length) ++ b ++ tail)) by simp, e, hn,
    if_neg (by simp)]
  by_cases h0 : UInt16.ofNat a.length = 0
  · rw [if_pos h0]
    have hl : a.length = 0 := by rw [← hn, h0]; rfl
    have : a = [] := List.length_eq_zero_iff.1 hl
    subst this
    rfl
  · rw [if_neg h0, if_neg (by simp)]
    congr 2
    simp [List.append_assoc]

/-- C40 is false: given one address that is not empty, a second, non-empty one is read back. -/
theorem C40_RedirectInformation_violated (typ : UInt8) (a : Bytes) (ha : a.length < 65536) (h0 : a ≠ []) : ∃ w v,
    RedirectInformation.build typ [a] = .ok w ∧ RedirectInformation.codec.parse ⟨w, []⟩ = .ok v ∧ v.addr2 ≠ [] := by
  obtain ⟨w, h1, h2⟩ := C40_RedirectInformation_partial typ [a] a [] rfl ha (by simp) [] []
  rw [List.append_nil] at h2
  refine ⟨w, _, h1, h2, ?_⟩
  intro hc
  have hl := congrArg List.length hc
  have := List.length_pos_iff.2 h0
  simp only [List.append_nil, List.length_take, List.length_drop, List.length_append, be16_length, List.length_nil] at hl
  omega

/-- An element that ends after the first address (which the specification allows) is refused unless that is empty. -/
theorem C40_RedirectInformation_single_violated (typ : UInt8) (a : Bytes) (ha : a.length < 65536) (h0 : a ≠ [])
    (sp : Bytes) :
    RedirectInformation.codec.parse ⟨typ :: (be16 (UInt16.ofNat a.length) ++ a), sp⟩ = .err .unexpectedEOF := by
  have hn : (UInt16.ofNat a.length).toNat = a.length := by rw [UInt16.toNat_ofNat']; omega
  have := List.length_pos_iff.2 h0
  rw [RedirectInformation.parse_eq, hn, if_neg (by omega), if_neg, if_pos (by omega)]
  intro hc
  rw [hc] at hn
  simp at hn
  omega

theorem RedirectInformation.cases (d : Bytes) : d.length < 3 ∨ ∃ t n r, d = t :: (be16 n ++ r) := by
  match d with
  | [] => exact Or.inl (by simp)
  | [_] => exact Or.inl (by simp)
  | [_, _] => exact Or.inl (by simp)
  | t :: x :: y :: r => exact Or.inr ⟨t, dec16 [x, y], r, by rw [be16_dec16 _ rfl]; rfl⟩

theorem C41_RedirectInformation : RedirectInformation.codec.NoPanic := by
  rintro ⟨d, sp⟩ h
  rcases RedirectInformation.cases d with hl | ⟨t, n, r, rfl⟩
  · rw [show RedirectInformation.codec.parse ⟨d, sp⟩ = _ from P.run_minLen_err (n := 3) hl] at h
    cases h
  · rw [RedirectInformation.parse_eq] at h
    repeat' split at h
    all_goals cases h

theorem C42_RedirectInformation : RedirectInformation.codec.Local := by
  intro d sp sp'
  rcases RedirectInformation.cases d with hl | ⟨t, n, r, rfl⟩
  · rw [show RedirectInformation.codec.parse ⟨d, sp⟩ = _ from P.run_minLen_err (n := 3) hl,
      show RedirectInformation.codec.parse ⟨d, sp'⟩ = _ from P.run_minLen_err (n := 3) hl]
  · rw [RedirectInformation.parse_eq, RedirectInformation.parse_eq]

theorem C43_RedirectInformation_partial (typ : UInt8) (addrs : List Bytes) (a b : Bytes)
    (h : redirectAddrs addrs = some (a, b)) (ha : a.length < 65536) (hb : b.length < 65536) :
    ∃ w, RedirectInformation.build typ addrs = .ok w := ⟨_, C52_RedirectInformation typ addrs a b h ha hb⟩

/-- C43 is false: without addresses the constructor panics. -/
theorem C43_RedirectInformation_violated (typ : UInt8) : RedirectInformation.build typ [] = .panic := rfl

/-- C53 is false for every accepted element with a non-empty address that ends where a decoder would expect it to
end: the re-encoding is longer than the element. -/
theorem C53_RedirectInformation_violated (t : UInt8) (n : UInt16) (a b : Bytes) (sp : Bytes) (h0 : n ≠ 0)
    (ha : a.length = n.toNat) (hb : b.length = 2) : ∃ v w,
    RedirectInformation.codec.parse ⟨t :: (be16 n ++ (a ++ b)), sp⟩ = .ok v ∧
    RedirectInformation.codec.marshal v = .ok w ∧ w.length = (t :: (be16 n ++ (a ++ b))).length + n.toNat := by
  rw [RedirectInformation.parse_eq, if_neg (by simp [ha]), if_neg h0, if_neg (by simp [ha, hb])]
  have hag : (⟨t, n, (a ++ b).take n.toNat, n, ((a ++ b).drop 2).take n.toNat⟩ : RedirectInformation).Agree := by
    constructor <;> simp [ha, hb]
  refine ⟨_, _, rfl, RedirectInformation.emits _ hag, ?_⟩
  rw [RedirectInformation.enc_length _ hag]
  simp [RedirectInformation.marshalLen, ha, hb]
  omega

example : RedirectInformation.codec.parse ⟨[2, 0, 2, 97, 98, 0, 0], []⟩ = .ok ⟨2, 2, [97, 98], 2, [0, 0]⟩ := by decide

/-! ### UserID -/

/-- Telephony binary coded decimal of a string of decimal digits: two digits per octet, the first in the lower half, an
odd last one beside the filler 15. -/
def tbcd : Bytes → Bytes
  | [] => []
  | [x] => [0xf0 ||| (x - 48)]
  | x :: y :: r => ((y - 48) <<< 4 ||| (x - 48)) :: tbcd r

namespace UserID
open Text

/-- A string of decimal digits. -/
def IsDecs (s : Bytes) : Prop := ∀ c ∈ s, IsDec c

theorem isHex_of_isDec {c : UInt8} (h : IsDec c) : IsHex c := Or.inl h
theorem lower_of_isDec : ∀ c, IsDec c → lower c = c := forall_byte (by decide +kernel)

theorem lower_decs {s : Bytes} (h : IsDecs s) : s.map lower = s := by
  induction s with
  | nil => rfl
  | cons c r ih =>
    rw [List.map_cons, lower_of_isDec c (h c (List.mem_cons_self ..)), ih fun x hx => h x (List.mem_cons_of_mem _ hx)]

theorem flip_dec : ∀ a b : UInt8, IsDec a → IsDec b →
    ∃ x y, hexVal a = some x ∧ hexVal b = some y ∧ flip (x <<< 4 ||| y) = (b - 48) <<< 4 ||| (a - 48) := by
  intro a b ha hb
  obtain ⟨a1, a2, _⟩ := dec_val a ha
  obtain ⟨b1, b2, _⟩ := dec_val b hb
  exact ⟨_, _, a1, b1, by
    have := (join_key (a - 48) (b - 48) a2 b2)
    exact this.2⟩

theorem flip_fill : ∀ a : UInt8, IsDec a → ∃ x, hexVal a = some x ∧
    flip (x <<< 4 ||| 15) = (0xf0 : UInt8) ||| (a - 48) := by
  intro a ha
  obtain ⟨a1, _⟩ := dec_val a ha
  refine ⟨_, a1, ?_⟩
  clear a1
  revert ha
  revert a
  exact forall_byte (by decide +kernel)

theorem swapped_dec (s : Bytes) (h : IsDecs s) : strToSwappedBytes s fillerF = .ok (tbcd s) := by
  suffices hk : (s.length % 2 = 0 → ∃ raw, hexDecode s = .ok raw ∧ swap raw = tbcd s) ∧
      (s.length % 2 = 1 → ∃ raw, hexDecode (s ++ fillerF) = .ok raw ∧ swap raw = tbcd s) by
    unfold strToSwappedBytes
    by_cases h0 : s.length % 2 = 0
    · obtain ⟨raw, h1, h2⟩ := hk.1 h0
      rw [if_pos h0, h1, Res.ok_bind, ← h2]; rfl
    · obtain ⟨raw, h1, h2⟩ := hk.2 (by omega)
      rw [if_neg h0, h1, Res.ok_bind, ← h2]; rfl
  induction s using tbcd.induct with
  | case1 => exact ⟨fun _ => ⟨[], rfl, rfl⟩, fun h => absurd h (by decide)⟩
  | case2 x =>
    refine ⟨fun h => absurd h (by simp), fun _ => ?_⟩
    obtain ⟨v, h1, h2⟩ := flip_fill x (h x (List.mem_cons_self ..))
    refine ⟨[v <<< 4 ||| 15], ?_, ?_⟩
    · show hexDecode [x, 102] = _
      unfold hexDecode
      rw [h1, show hexVal 102 = some 15 by decide]
      rfl
    · show [flip (v <<< 4 ||| 15)] = _
      rw [h2]; rfl
  | case3 x y r ih =>
    obtain ⟨u, v, h1, h2, h3⟩ := flip_dec x y (h x (by simp)) (h y (by simp))
    obtain ⟨i1, i2⟩ := ih fun c hc => h c (by simp [hc])
    refine ⟨fun hl => ?_, fun hl => ?_⟩
    · obtain ⟨raw, e1, e2⟩ := i1 (by simp only [List.length_cons] at hl; omega)
      refine ⟨(u <<< 4 ||| v) :: raw, ?_, ?_⟩
      · unfold hexDecode
        rw [h1, h2]
        simp only [e1, Res.ok_bind]
      · show flip _ :: swap raw = _
        rw [h3, e2]; rfl
    · obtain ⟨raw, e1, e2⟩ := i2 (by simp only [List.length_cons] at hl; omega)
      refine ⟨(u <<< 4 ||| v) :: raw, ?_, ?_⟩
      · show hexDecode (x :: y :: (r ++ fillerF)) = _
        unfold hexDecode
        rw [h1, h2]
        simp only [e1, Res.ok_bind]
      · show flip _ :: swap raw = _
        rw [h3, e2]; rfl

theorem digits_tbcd_odd (s : Bytes) (h : IsDecs s) (ho : s.length % 2 = 1) : digits (tbcd s) = s := by
  obtain ⟨b, h1, _, h3⟩ := C31_odd s 102 ho (fun c hc => isHex_of_isDec (h c hc)) (by decide)
  have := swapped_dec s h
  unfold fillerF at this
  rw [h1] at this
  cases this
  rw [lower_decs h] at h3
  exact h3

theorem digits_tbcd_even (s : Bytes) (h : IsDecs s) (ho : s.length % 2 = 0) : digits (tbcd s) = s.take (s.length - 1) := by
  have := C31_even_cut s fillerF (tbcd s) ho (fun c hc => isHex_of_isDec (h c hc)) (swapped_dec s h)
  rw [lower_decs h] at this
  exact this

theorem tbcd_length (s : Bytes) : (tbcd s).length = (s.length + 1) / 2 := by
  induction s using tbcd.induct with
  | case1 => rfl
  | case2 => simp [tbcd]
  | case3 x y r ih => simp only [tbcd, List.length_cons, ih]; omega

/-- The strings announced by the flags are digit strings that fit. -/
def Args (flags : UInt8) (imsi imei msisdn nai : Bytes) : Prop :=
  (bit flags 0 = true → IsDecs imsi ∧ imsi.length < 511) ∧ (bit flags 1 = true → IsDecs imei ∧ imei.length < 511) ∧
  (bit flags 2 = true → IsDecs msisdn ∧ msisdn.length < 511) ∧ (bit flags 3 = true → nai.length < 256)

theorem new_eq {flags : UInt8} {imsi imei msisdn nai : Bytes} (h : Args flags imsi imei msisdn nai) :
    new flags imsi imei msisdn nai = some
      ⟨flags, if has1stBit flags then UInt8.ofNat (tbcd imsi).length else 0, if has1stBit flags then imsi else [],
      if has2ndBit flags then UInt8.ofNat (tbcd imei).length else 0, if has2ndBit flags then imei else [],
      if has3rdBit flags then UInt8.ofNat (tbcd msisdn).length else 0, if has3rdBit flags then msisdn else [],
      if has4thBit flags then UInt8.ofNat nai.length else 0, if has4thBit flags then nai else []⟩ := by
  obtain ⟨h1, h2, h3, _⟩ := h
  have key : ∀ (c : Bool) (s : Bytes), (c = true → IsDecs s ∧ s.length < 511) → newDigits c s
      = some (if c then UInt8.ofNat (tbcd s).length else 0, if c then s else []) := by
    intro c s hs
    cases c
    · rfl
    · unfold newDigits
      rw [swapped_dec s (hs rfl).1]
      rfl
  unfold new
  rw [key _ _ (by rw [has1stBit_eq]; exact h1), key _ _ (by rw [has2ndBit_eq]; exact h2),
    key _ _ (by rw [has3rdBit_eq]; exact h3)]
  cases has4thBit flags <;> rfl

theorem build_eq {flags : UInt8} {imsi imei msisdn nai : Bytes} (h : Args flags imsi imei msisdn nai) :
    build flags imsi imei msisdn nai = .ok (wire flags (if has1stBit flags then tbcd imsi else [])
      (if has2ndBit flags then tbcd imei else []) (if has3rdBit flags then tbcd msisdn else [])
      (if has4thBit flags then nai else [])) := by
  unfold build
  rw [new_eq h]
  simp only
  obtain ⟨h1, h2, h3, h4⟩ := h
  rw [← has1stBit_eq] at h1
  rw [← has2ndBit_eq] at h2
  rw [← has3rdBit_eq] at h3
  rw [← has4thBit_eq] at h4
  have hl : ∀ (c : Bool) (s : Bytes), (c = true → IsDecs s ∧ s.length < 511) →
      (if c then tbcd s else []).length < 256 := by
    intro c s hs
    cases c
    · simp
    · have := (hs rfl).2
      simp only [if_true, tbcd_length]
      omega
  have hd : ∀ (c : Bool) (s : Bytes), (c = true → IsDecs s ∧ s.length < 511) → c = true →
      strToSwappedBytes s fillerF = .ok (if c then tbcd s else []) := by
    intro c s hs hc
    rw [swapped_dec s (hs hc).1, hc]; rfl
  have hn : (if has4thBit flags = true then nai else []).length < 256 := by
    cases hc : has4thBit flags
    · simp
    · exact h4 hc
  have := emits flags _ _ _ _ imsi imei msisdn (hl _ _ h1) (hl _ _ h2) (hl _ _ h3) hn (hd _ _ h1) (hd _ _ h2) (hd _ _ h3)
  rw [← this]
  cases has1stBit flags <;> cases has2ndBit flags <;> cases has3rdBit flags <;> cases has4thBit flags <;> rfl

end UserID

/-- C52. Flags, then the announced strings, each behind its length in octets; digits in TBCD. -/
theorem C52_UserID (flags : UInt8) (imsi imei msisdn nai : Bytes) (h : UserID.Args flags imsi imei msisdn nai) :
    UserID.build flags imsi imei msisdn nai = .ok ([flags] ++
      (if bit flags 0 then UInt8.ofNat ((imsi.length + 1) / 2) :: tbcd imsi else []) ++
      (if bit flags 1 then UInt8.ofNat ((imei.length + 1) / 2) :: tbcd imei else []) ++
      (if bit flags 2 then UInt8.ofNat ((msisdn.length + 1) / 2) :: tbcd msisdn else []) ++
      (if bit flags 3 then UInt8.ofNat nai.length :: nai else [])) := by
  rw [UserID.build_eq h]
  unfold UserID.wire UserID.lv
  simp only [has1stBit_eq, has2ndBit_eq, has3rdBit_eq, has4thBit_eq]
  cases bit flags 0 <;> cases bit flags 1 <;> cases bit flags 2 <;> cases bit flags 3 <;> simp [UserID.tbcd_length]

/-- C40, exactly: each announced digit string comes back as it was if it has an odd number of digits, and without its
last digit if the number is even. -/
theorem UserID.yields (flags : UInt8) (imsi imei msisdn nai : Bytes) (h : UserID.Args flags imsi imei msisdn nai) :
    ∃ w, UserID.build flags imsi imei msisdn nai = .ok w ∧ ∀ tail sp, ∃ v,
      UserID.codec.parse ⟨w ++ tail, sp⟩ = .ok v ∧ v.flags = flags ∧
      v.imsi = (if bit flags 0 then UserID.digits (tbcd imsi) else []) ∧
      v.imei = (if bit flags 1 then UserID.digits (tbcd imei) else []) ∧
      v.msisdn = (if bit flags 2 then UserID.digits (tbcd msisdn) else []) ∧
      v.nai = (if bit flags 3 then nai else []) := by
  refine ⟨_, UserID.build_eq h, fun tail sp => ?_⟩
  obtain ⟨h1, h2, h3, h4⟩ := h
  rw [← has1stBit_eq] at h1
  rw [← has2ndBit_eq] at h2
  rw [← has3rdBit_eq] at h3
  rw [← has4thBit_eq] at h4
  have hl : ∀ (c : Bool) (s : Bytes), (c = true → UserID.IsDecs s ∧ s.length < 511) →
      (if c then tbcd s else []).length < 256 := by
    intro c s hs
    cases c
    · simp
    · have := (hs rfl).2
      simp only [if_true, UserID.tbcd_length]
      omega
  have hn : (if has4thBit flags = true then nai else []).length < 256 := by
    cases hc : has4thBit flags
    · simp
    · exact h4 hc
  refine ⟨_, UserID.reads _ _ _ _ _ (hl _ _ h1) (hl _ _ h2) (hl _ _ h3) hn tail sp, ?_⟩
  unfold UserID.value
  simp only [has1stBit_eq, has2ndBit_eq, has3rdBit_eq, has4thBit_eq]
  cases bit flags 0 <;> cases bit flags 1 <;> cases bit flags 2 <;> cases bit flags 3 <;>
    simp

/-- C40 for digit strings of odd length. -/
theorem C40_UserID_partial (flags : UInt8) (imsi imei msisdn nai : Bytes) (h : UserID.Args flags imsi imei msisdn nai)
    (h1 : bit flags 0 = true → imsi.length % 2 = 1) (h2 : bit flags 1 = true → imei.length % 2 = 1)
    (h3 : bit flags 2 = true → msisdn.length % 2 = 1) :
    ∃ w, UserID.build flags imsi imei msisdn nai = .ok w ∧ ∀ tail sp, ∃ v,
      UserID.codec.parse ⟨w ++ tail, sp⟩ = .ok v ∧ v.flags = flags ∧
      v.imsi = (if bit flags 0 then imsi else []) ∧ v.imei = (if bit flags 1 then imei else []) ∧
      v.msisdn = (if bit flags 2 then msisdn else []) ∧ v.nai = (if bit flags 3 then nai else []) := by
  obtain ⟨w, hw, hp⟩ := UserID.yields flags imsi imei msisdn nai h
  refine ⟨w, hw, fun tail sp => ?_⟩
  obtain ⟨v, hv, e0, e1, e2, e3, e4⟩ := hp tail sp
  obtain ⟨a1, a2, a3, a4⟩ := h
  refine ⟨v, hv, e0, e1.trans ?_, e2.trans ?_, e3.trans ?_, e4⟩
  · cases hb : bit flags 0
    · rfl
    · exact UserID.digits_tbcd_odd _ (a1 hb).1 (h1 hb)
  · cases hb : bit flags 1
    · rfl
    · exact UserID.digits_tbcd_odd _ (a2 hb).1 (h2 hb)
  · cases hb : bit flags 2
    · rfl
    · exact UserID.digits_tbcd_odd _ (a3 hb).1 (h3 hb)

/-- C40 is false for every digit string of even, non-zero length (all telephone numbers of 12 digits, IMEISVs of 16): it
comes back without its last digit. Stated for the MSISDN. -/
theorem C40_UserID_violated (msisdn : Bytes) (h : UserID.IsDecs msisdn) (hl : msisdn.length < 511) (h0 : msisdn ≠ [])
    (he : msisdn.length % 2 = 0) : ∃ w v, UserID.build 4 [] [] msisdn [] = .ok w ∧
      UserID.codec.parse ⟨w, []⟩ = .ok v ∧ v.msisdn = msisdn.take (msisdn.length - 1) ∧ v.msisdn ≠ msisdn := by
  obtain ⟨w, hw, hp⟩ := UserID.yields 4 [] [] msisdn []
    ⟨fun h => absurd h (by decide), fun h => absurd h (by decide), fun _ => ⟨h, hl⟩, fun h => absurd h (by decide)⟩
  obtain ⟨v, hv, _, _, _, e3, _⟩ := hp [] []
  rw [List.append_nil] at hv
  rw [show bit 4 2 = true by decide] at e3
  simp only [if_true] at e3
  rw [UserID.digits_tbcd_even msisdn h he] at e3
  refine ⟨w, v, hw, hv, e3, ?_⟩
  rw [e3]
  intro hc
  have := congrArg List.length hc
  rw [List.length_take] at this
  have := List.length_pos_iff.2 h0
  omega

theorem C41_UserID : UserID.codec.NoPanic := UserID.good.run.1
theorem C42_UserID : UserID.codec.Local := UserID.good.run.2

theorem C43_UserID_partial (flags : UInt8) (imsi imei msisdn nai : Bytes) (h : UserID.Args flags imsi imei msisdn nai) :
    ∃ w, UserID.build flags imsi imei msisdn nai = .ok w := ⟨_, UserID.build_eq h⟩

/-- C43 is false: whenever an announced IMSI contains something else than a hexadecimal digit, the constructor panics. -/
theorem C43_UserID_violated (flags : UInt8) (imsi imei msisdn nai : Bytes) (h0 : bit flags 0 = true)
    (h : ∃ c ∈ imsi, ¬ Text.IsHex c) : UserID.build flags imsi imei msisdn nai = .panic := by
  unfold UserID.build UserID.new UserID.newDigits
  rw [has1stBit_eq, h0, if_pos rfl, show Text.fillerF = [102] from rfl, Text.C31_refuses imsi 102 h]
  rfl

/-- The digits of the octets are followed by a filler, or there are none. -/
def Filled (b : Bytes) : Prop := b = [] ∨ ∃ x, b.getLast? = some x ∧ x >>> 4 = 15

theorem UserID.digits_filled (b : Bytes) (h : Filled b) :
    Text.strToSwappedBytes (UserID.digits b) Text.fillerF = .ok b := by
  have hk : ∀ (r : Bytes) (x : UInt8), Text.hexEncode (r ++ [x])
      = Text.hexEncode r ++ [Text.hexDigit (x >>> 4), Text.hexDigit (x &&& 0x0f)] := by
    intro r x
    induction r with
    | nil => rfl
    | cons y r ih => simp only [List.cons_append, Text.hexEncode, ih]
  rcases h with rfl | ⟨x, hx, h15⟩
  · rfl
  · have hne : b ≠ [] := by intro hc; rw [hc] at hx; cases hx
    obtain ⟨r, rfl⟩ : ∃ r, b = r ++ [x] := by
      refine ⟨b.dropLast, ?_⟩
      have hg := List.dropLast_concat_getLast hne
      rw [List.getLast?_eq_some_getLast hne] at hx
      cases hx
      exact hg.symm
    unfold UserID.digits Text.swappedBytesToStr
    rw [if_neg (by simp)]
    simp only [if_true]
    have e : Text.swap (r ++ [x]) = Text.swap r ++ [Text.flip x] := by simp [Text.swap]
    have hf : Text.flip x &&& 0x0f = (15 : UInt8) := by
      revert h15
      clear hx hne e
      revert x
      exact forall_byte (by decide +kernel)
    rw [e, hk, hf, show Text.hexDigit 15 = 102 by decide]
    have et : (Text.hexEncode (Text.swap r) ++ [Text.hexDigit (Text.flip x >>> 4), 102]).take
        ((Text.hexEncode (Text.swap r) ++ [Text.hexDigit (Text.flip x >>> 4), 102]).length - 1)
        = Text.hexEncode (Text.swap r) ++ [Text.hexDigit (Text.flip x >>> 4)] := by
      rw [show Text.hexEncode (Text.swap r) ++ [Text.hexDigit (Text.flip x >>> 4), 102]
        = (Text.hexEncode (Text.swap r) ++ [Text.hexDigit (Text.flip x >>> 4)]) ++ [102] by simp]
      exact List.take_left' (by simp)
    rw [et]
    unfold Text.strToSwappedBytes
    rw [if_neg (by simp)]
    have e2 : Text.hexEncode (Text.swap r) ++ [Text.hexDigit (Text.flip x >>> 4)] ++ Text.fillerF
        = Text.hexEncode (Text.swap (r ++ [x])) := by
      rw [e, hk, hf]
      simp [Text.fillerF, show Text.hexDigit 15 = 102 by decide]
    rw [e2, Text.hexDecode_encode, Res.ok_bind]
    show Res.ok (Text.swap (Text.swap (r ++ [x]))) = _
    rw [Text.swap_swap]

/-- C53 for elements whose digit strings end in the filler. -/
theorem C53_UserID_partial (flags : UInt8) (i e m n : Bytes) (hi : i.length < 256) (he : e.length < 256)
    (hm : m.length < 256) (hn : n.length < 256) (fi : Filled i) (fe : Filled e) (fm : Filled m) (tail sp : Bytes) :
    ∃ v, UserID.codec.parse ⟨UserID.wire flags i e m n ++ tail, sp⟩ = .ok v ∧
      UserID.codec.marshal v = .ok (UserID.wire flags i e m n) :=
  ⟨_, UserID.reads flags i e m n hi he hm hn tail sp, UserID.emits flags i e m n _ _ _ hi he hm hn
    (fun _ => UserID.digits_filled i fi) (fun _ => UserID.digits_filled e fe) (fun _ => UserID.digits_filled m fm)⟩

/-- Every accepted element has the form assumed there. -/
theorem C53_UserID_form_partial (s : Slice) (v : UserID) (h : UserID.codec.parse s = .ok v) :
    ∃ flags i e m n post, s.data = UserID.wire flags i e m n ++ post ∧ i.length < 256 ∧ e.length < 256 ∧
      m.length < 256 ∧ n.length < 256 := by
  obtain ⟨flags, i, e, m, n, post, h1, h2, h3, h4, h5, _⟩ := UserID.takes s v h
  exact ⟨flags, i, e, m, n, post, h1, h2, h3, h4, h5⟩

/-- C53 is false in general: two digits without filler. -/
theorem C53_UserID_violated : ∃ v, UserID.codec.parse ⟨[4, 1, 0x21], []⟩ = .ok v ∧
    UserID.codec.marshal v = .ok [4, 1, 0xf1] :=
  ⟨⟨4, 0, [], 0, [], 1, [49], 0, []⟩, by decide, by decide⟩

example : UserID.Args 4 [] [] [49, 50, 51] [] :=
  ⟨fun h => absurd h (by decide), fun h => absurd h (by decide), fun _ => ⟨by unfold UserID.IsDecs; decide, by decide⟩,
    fun h => absurd h (by decide)⟩
example : UserID.build 4 [] [] [49, 50, 51] [] = .ok [4, 2, 0x21, 0xf3] := by decide
example : Filled [0x21, 0xf3] := Or.inr ⟨0xf3, rfl, by decide⟩

end Fields
end Pfcp
