/- Property theorems C40-C43, C52, C53 for TraceInformation, MACAddressesDetected and MACAddressesRemoved. -/
import Verif.Fields.Misc4
import Verif.Text.Props

namespace Pfcp
namespace Fields

open Text

/-! ### TraceInformation -/

/-- Three-octet PLMN identity, TS 29.244 figure 8.2.x: MCC digits 2 and 1, MNC digit 3 (or 15) and MCC digit 3,
MNC digits 2 and 1. -/
inductive PLMN : Bytes → Bytes → Bytes → Prop
  | two (a b c m n : UInt8) : IsDec a → IsDec b → IsDec c → IsDec m → IsDec n →
      PLMN [a, b, c] [m, n] [(b - 48) <<< 4 ||| (a - 48), (0xf0 : UInt8) ||| (c - 48), (n - 48) <<< 4 ||| (m - 48)]
  | three (a b c m n o : UInt8) : IsDec a → IsDec b → IsDec c → IsDec m → IsDec n → IsDec o →
      PLMN [a, b, c] [m, n, o]
        [(b - 48) <<< 4 ||| (a - 48), (o - 48) <<< 4 ||| (c - 48), (n - 48) <<< 4 ||| (m - 48)]

theorem PLMN.length {mcc mnc p : Bytes} (h : PLMN mcc mnc p) : p.length = 3 := by cases h <;> rfl
theorem PLMN.encode {mcc mnc p : Bytes} (h : PLMN mcc mnc p) : encodePLMN mcc mnc = .ok p := by
  cases h with
  | two a b c m n ha hb hc hm hn => exact (C32_two a b c m n ha hb hc hm hn).1
  | three a b c m n o ha hb hc hm hn ho => exact (C32_three a b c m n o ha hb hc hm hn ho).1
theorem PLMN.decode {mcc mnc p : Bytes} (h : PLMN mcc mnc p) : decodePLMN p = .ok (mcc, mnc) := by
  cases h with
  | two a b c m n ha hb hc hm hn => exact (C32_two a b c m n ha hb hc hm hn).2
  | three a b c m n o ha hb hc hm hn ho => exact (C32_three a b c m n o ha hb hc hm hn ho).2

/-- The address of the collection entity as it goes on the wire: 4 octets for an IPv4 address in either form, otherwise
the 16 octets. -/
inductive TraceAddr : Bytes → Bytes → Prop
  | v4 (a : Bytes) : IsV4 a → TraceAddr a (to4 a)
  | v6 (a : Bytes) : a.length = 16 → ¬ IsV4 a → TraceAddr a a

theorem TraceInformation.new_eq (mcc mnc id events : Bytes) (depth : UInt8) (ifs : Bytes) {a w : Bytes}
    (h : TraceAddr a w) :
    TraceInformation.new mcc mnc id events depth ifs (some a)
      = ⟨mcc, mnc, id, UInt8.ofNat events.length, events, depth, UInt8.ofNat ifs.length, ifs,
          UInt8.ofNat w.length, some w⟩ ∧ w.length < 256 := by
  cases h with
  | v4 h =>
    have hl := to4_length h
    have hc : IP.conv4 (some a) = some (to4 a) := IP.conv4_eq (ip := some a) (by intro b hb; cases hb; exact h)
    unfold TraceInformation.new
    rw [hc, hl]
    exact ⟨rfl, by omega⟩
  | v6 h1 h2 =>
    have hc : IP.conv4 (some a) = none := by
      have e : to4 a = [] := by
        unfold to4
        rw [if_neg (by rw [h1]; decide), if_neg (fun h => h2 (Or.inr h))]
      unfold IP.conv4
      simp only [e]
      rfl
    unfold TraceInformation.new
    rw [hc, h1]
    exact ⟨rfl, by omega⟩

theorem TraceInformation.new_agree (mcc mnc : Bytes) {id events : Bytes} (depth : UInt8) {ifs a w : Bytes}
    (h : TraceAddr a w) (hi : id.length = 3) (he : events.length < 256) (hf : ifs.length < 256) :
    (TraceInformation.new mcc mnc id events depth ifs (some a)).Agree := by
  obtain ⟨e, hw⟩ := TraceInformation.new_eq mcc mnc id events depth ifs h
  rw [e]
  have hn : ∀ n, n < 256 → (UInt8.ofNat n).toNat = n := fun n hn => by simp; omega
  exact ⟨hi, (hn _ he).symm, (hn _ hf).symm, (hn _ hw).symm⟩

/-- C52. PLMN identity, trace reference, events with their length, depth, interfaces with their length, address with its
length. -/
theorem C52_TraceInformation (mcc mnc p id events : Bytes) (depth : UInt8) (ifs a w : Bytes) (hp : PLMN mcc mnc p)
    (ha : TraceAddr a w) (hi : id.length = 3) (he : events.length < 256) (hf : ifs.length < 256) :
    TraceInformation.codec.Encodes (TraceInformation.new mcc mnc id events depth ifs (some a))
      (p ++ id ++ [UInt8.ofNat events.length] ++ events ++ [depth] ++ [UInt8.ofNat ifs.length] ++ ifs ++
        [UInt8.ofNat w.length] ++ w) := by
  have hg := TraceInformation.new_agree mcc mnc depth ha hi he hf
  have e := (TraceInformation.new_eq mcc mnc id events depth ifs ha).1
  rw [e] at hg ⊢
  unfold Codec.Encodes
  rw [TraceInformation.emits hp.length _ hg hp.encode]
  simp [TraceInformation.enc, IP.val]

/-- C40 for the PLMN identity, the trace reference, the depth and the lengths; the contents are lost. -/
theorem C40_TraceInformation_partial (mcc mnc p id events : Bytes) (depth : UInt8) (ifs a w : Bytes)
    (hp : PLMN mcc mnc p) (ha : TraceAddr a w) (hi : id.length = 3) (he : events.length < 256)
    (hf : ifs.length < 256) :
    TraceInformation.codec.Yields (TraceInformation.new mcc mnc id events depth ifs (some a))
      ⟨mcc, mnc, id, UInt8.ofNat events.length, [], depth, UInt8.ofNat ifs.length, [], UInt8.ofNat w.length, none⟩ := by
  have hg := TraceInformation.new_agree mcc mnc depth ha hi he hf
  have e := (TraceInformation.new_eq mcc mnc id events depth ifs ha).1
  rw [e] at hg ⊢
  exact ⟨_, TraceInformation.emits hp.length _ hg hp.encode, TraceInformation.reads p hp.length _ hg hp.decode⟩

/-- Splits a payload of six octets or more. -/
theorem TraceInformation.split (d : Bytes) (h : 6 ≤ d.length) : ∃ p id r : Bytes, p.length = 3 ∧ id.length = 3 ∧
    d = p ++ id ++ r := by
  refine ⟨d.take 3, (d.drop 3).take 3, (d.drop 3).drop 3, by simp; omega, by simp; omega, ?_⟩
  rw [List.append_assoc, List.take_append_drop, List.take_append_drop]

theorem TraceInformation.short (d sp : Bytes) (h : d.length < 6) :
    TraceInformation.codec.parse ⟨d, sp⟩ = .err .unexpectedEOF := P.run_minLen_err h

theorem TraceInformation.tail_lost {x : Bytes × Bytes} {id : Bytes} {s : Slice} {o : Nat} {v : TraceInformation}
    {o' : Nat} (h : TraceInformation.parseTail x id s o = .ok (v, o')) : v.events = [] ∧ v.ifs = [] ∧ v.ip = none := by
  unfold TraceInformation.parseTail at h
  obtain ⟨_, _, _, h⟩ := P.bind_inv h
  obtain ⟨_, _, _, h⟩ := P.bind_inv h
  obtain ⟨_, _, _, h⟩ := P.bind_inv h
  obtain ⟨_, _, _, h⟩ := P.bind_inv h
  cases h
  exact ⟨rfl, rfl, rfl⟩

/-- C40 is false: no element is decoded to a value with events, interfaces or an address. -/
theorem C40_TraceInformation_violated (s : Slice) (v : TraceInformation)
    (h : TraceInformation.codec.parse s = .ok v) : v.events = [] ∧ v.ifs = [] ∧ v.ip = none := by
  obtain ⟨d, sp⟩ := s
  by_cases c : d.length < 6
  · rw [TraceInformation.short d sp c] at h
    cases h
  obtain ⟨p, id, r, hp, hi, rfl⟩ := TraceInformation.split d (by omega)
  obtain ⟨x, hx⟩ := TraceInformation.parse_eq p id r sp hp hi
  rw [hx] at h
  cases ht : TraceInformation.parseTail x id ⟨p ++ id ++ r, sp⟩ (p ++ id).length with
  | panic => rw [ht] at h; cases h
  | err e => rw [ht] at h; cases h
  | ok y =>
    rw [ht] at h
    cases h
    exact TraceInformation.tail_lost ht

/-- The decoder panics on `d` exactly if `d` has the six octets in front and ends just before the triggering events, the
depth, the interfaces or the address. -/
theorem TraceInformation.panic_iff (d sp : Bytes) : TraceInformation.codec.parse ⟨d, sp⟩ = .panic ↔
    6 ≤ d.length ∧ TraceInformation.Stops (d.drop 6) := by
  by_cases c : d.length < 6
  · rw [TraceInformation.short d sp c]
    exact ⟨fun h => (by cases h), fun h => by omega⟩
  obtain ⟨p, id, r, hp, hi, rfl⟩ := TraceInformation.split d (by omega)
  obtain ⟨x, hx⟩ := TraceInformation.parse_eq p id r sp hp hi
  have hd : (p ++ id ++ r).drop 6 = r := by
    rw [show 6 = (p ++ id).length by simp; omega, List.drop_left]
  rw [hx, hd]
  have ht := TraceInformation.tail_panic x id (p ++ id) r sp
  constructor
  · intro h
    refine ⟨by omega, ht.1 ?_⟩
    cases hy : TraceInformation.parseTail x id ⟨p ++ id ++ r, sp⟩ (p ++ id).length with
    | panic => rfl
    | err e => rw [hy] at h; cases h
    | ok y => rw [hy] at h; cases h
  · intro h
    rw [ht.2 h.2]

/-- C41 is false: a payload of exactly six octets is one that panics. -/
theorem C41_TraceInformation_violated (d sp : Bytes) (h : d.length = 6) :
    TraceInformation.codec.parse ⟨d, sp⟩ = .panic := by
  refine (TraceInformation.panic_iff d sp).2 ⟨by omega, ?_⟩
  rw [List.drop_of_length_le (by omega)]
  exact .events

/-- C41: these are the payloads on which it panics, and all others are answered. Here `q` is any six octets. -/
theorem C41_TraceInformation_partial (d sp : Bytes) : TraceInformation.codec.parse ⟨d, sp⟩ = .panic ↔
    ∃ q : Bytes, q.length = 6 ∧ (d = q ∨
      (∃ (n : UInt8) (ev : Bytes), ev.length = n.toNat ∧ d = q ++ n :: ev) ∨
      (∃ (n : UInt8) (ev : Bytes) (dep : UInt8), ev.length = n.toNat ∧ d = q ++ (n :: ev ++ [dep])) ∨
      (∃ (n : UInt8) (ev : Bytes) (dep m : UInt8) (fs : Bytes), ev.length = n.toNat ∧ fs.length = m.toNat ∧
        d = q ++ (n :: ev ++ dep :: m :: fs))) := by
  rw [TraceInformation.panic_iff]
  constructor
  · rintro ⟨hl, h⟩
    have e : d = d.take 6 ++ d.drop 6 := (List.take_append_drop 6 d).symm
    refine ⟨d.take 6, by simp; omega, ?_⟩
    generalize hq : d.take 6 = q at e
    generalize hr : d.drop 6 = r at e h
    subst e
    cases h with
    | events => exact Or.inl (List.append_nil _)
    | depth n ev h => exact Or.inr (Or.inl ⟨n, ev, h, rfl⟩)
    | ifs n ev dep h => exact Or.inr (Or.inr (Or.inl ⟨n, ev, dep, h, rfl⟩))
    | ip n ev dep m fs h1 h2 => exact Or.inr (Or.inr (Or.inr ⟨n, ev, dep, m, fs, h1, h2, rfl⟩))
  · rintro ⟨q, hq, h⟩
    have hd : ∀ r : Bytes, (q ++ r).drop 6 = r := fun r => by rw [← hq, List.drop_left]
    rcases h with rfl | ⟨n, ev, h, rfl⟩ | ⟨n, ev, dep, h, rfl⟩ | ⟨n, ev, dep, m, fs, h1, h2, rfl⟩
    · exact ⟨by omega, by rw [List.drop_of_length_le (by omega)]; exact .events⟩
    · exact ⟨by simp; omega, by rw [hd]; exact .depth n ev h⟩
    · exact ⟨by simp; omega, by rw [hd]; exact .ifs n ev dep h⟩
    · exact ⟨by simp; omega, by rw [hd]; exact .ip n ev dep m fs h1 h2⟩

theorem C42_TraceInformation : TraceInformation.codec.Local := TraceInformation.loc

/-- C43 for a proper PLMN identity, trace reference and address, and lengths that fit an octet. -/
theorem C43_TraceInformation_partial (mcc mnc p id events : Bytes) (depth : UInt8) (ifs a w : Bytes)
    (hp : PLMN mcc mnc p) (ha : TraceAddr a w) (hi : id.length = 3) (he : events.length < 256)
    (hf : ifs.length < 256) :
    TraceInformation.codec.Builds (TraceInformation.new mcc mnc id events depth ifs (some a)) :=
  ⟨_, C52_TraceInformation mcc mnc p id events depth ifs a w hp ha hi he hf⟩

theorem TraceInformation.marshal_head (f : TraceInformation) :
    TraceInformation.codec.marshal f
      = (((TraceInformation.plmnW f.mcc f.mnc ;; W.copy 3 f.id ;;
  W.need 0 ;; W.u8 f.eventsLen ;; W.need f.eventsLen.toNat ;; W.copy f.eventsLen.toNat f.events ;;
  W.need 0 ;; W.u8 f.depth ;;
  W.need 0 ;; W.u8 f.ifsLen ;; W.need f.ifsLen.toNat ;; W.copy f.ifsLen.toNat f.ifs ;;
  W.need 0 ;; W.u8 f.ipLen ;; W.need f.ipLen.toNat ;; W.copy f.ipLen.toNat f.ip.val)
    ⟨List.replicate f.marshalLen 0, []⟩ 0 >>= fun r => .ok r.1) >>= fun s : Slice => .ok s.data) := by
  show W.marshal (W.minLen 6 ;; _) _ = _
  unfold W.marshal W.run Slice.make
  conv => lhs; unfold W.seq W.minLen
  simp only
  rw [if_neg (by simp [TraceInformation.marshalLen]; omega), Res.ok_bind]
  rfl

/-- C43 is false: whatever the other arguments, a country code with a character that is no digit gives no element, and
a one-digit network code panics. -/
theorem C43_TraceInformation_violated (mcc mnc id events : Bytes) (depth : UInt8) (ifs : Bytes) (ip : IP) :
    ((∃ c ∈ mcc, ¬ IsHex c) →
      TraceInformation.codec.marshal (TraceInformation.new mcc mnc id events depth ifs ip) = .err .hexDecode) ∧
    TraceInformation.codec.marshal (TraceInformation.new [48, 48, 49] [49] id events depth ifs ip) = .panic := by
  have hm : ∀ mcc mnc, (TraceInformation.new mcc mnc id events depth ifs ip).mcc = mcc ∧
      (TraceInformation.new mcc mnc id events depth ifs ip).mnc = mnc := by
    intro mcc mnc
    unfold TraceInformation.new
    cases ip.conv4 <;> exact ⟨rfl, rfl⟩
  constructor
  · intro h
    rw [TraceInformation.marshal_head, (hm mcc mnc).1, (hm mcc mnc).2]
    unfold W.seq TraceInformation.plmnW encodePLMN
    rw [show strToSwappedBytes mcc fillerF = .err .hexDecode from C31_refuses mcc 102 h]
    rfl
  · rw [TraceInformation.marshal_head, (hm _ _).1, (hm _ _).2]
    unfold W.seq TraceInformation.plmnW
    rw [C32_short_panics.1]
    rfl

/-- C53 is false: an element with an IPv4 address is re-encoded with the address 0.0.0.0. -/
theorem C53_TraceInformation_violated : ∃ v,
    TraceInformation.codec.parse ⟨[0x44, 0xf0, 0x01, 1, 2, 3, 1, 7, 5, 1, 9, 4, 127, 0, 0, 1], []⟩ = .ok v ∧
    TraceInformation.codec.marshal v = .ok [0x44, 0xf0, 0x01, 1, 2, 3, 1, 0, 5, 1, 0, 4, 0, 0, 0, 0] :=
  ⟨⟨[52, 52, 48], [49, 48], [1, 2, 3], 1, [], 5, 1, [], 4, none⟩, by decide, by decide⟩

example : PLMN [52, 52, 48] [49, 48] [0x44, 0xf0, 0x01] :=
  .two 52 52 48 49 48 (by decide) (by decide) (by decide) (by decide) (by decide)
example : TraceAddr [127, 0, 0, 1] [127, 0, 0, 1] := .v4 _ (Or.inl rfl)
example : TraceAddr [0x20, 1, 0, 0, 0, 0, 0, 0, 0, 0, 0, 0, 0, 0, 0, 1] [0x20, 1, 0, 0, 0, 0, 0, 0, 0, 0, 0, 0, 0, 0, 0, 1] :=
  .v6 _ rfl (by unfold IsV4; decide)
example : ∃ c ∈ ([0x67, 48, 49] : Bytes), ¬ IsHex c := ⟨0x67, by decide, by unfold IsHex; decide⟩

/-! ### MACAddressesDetected and MACAddressesRemoved -/

/-- C52. Number of addresses, the addresses, the two tags with their lengths. -/
theorem C52_MACAddresses (ct st : Bytes) (macs : List Bytes) (h1 : macs.length < 256) (h2 : ∀ m ∈ macs, m.length = 6)
    (h3 : ct.length < 256) (h4 : st.length < 256) :
    MACAddresses.build (some ct) (some st) macs = .ok ([UInt8.ofNat macs.length] ++ macs.flatten ++
      [UInt8.ofNat ct.length] ++ ct ++ [UInt8.ofNat st.length] ++ st) := by
  have hn : ∀ n, n < 256 → (UInt8.ofNat n).toNat = n := fun n hn => by simp; omega
  unfold MACAddresses.build MACAddresses.new
  simp only [Res.ok_bind]
  rw [MACAddresses.emits _ ⟨(hn _ h1).symm, h2, (hn _ h3).symm, (hn _ h4).symm⟩]
  simp [MACAddresses.enc]

/-- C40 is false: every decoded value has one address more than it counts, and no tags, so that nothing that
`NewMACAddressesDetected` encodes is decoded to the value it was made from. -/
theorem C40_MACAddresses_violated (s : Slice) (v : MACAddresses) (h : MACAddresses.codec.parse s = .ok v) :
    v.macs.length = v.n.toNat + 1 ∧ v.ctag = [] ∧ v.stag = [] ∧
    ∀ ct st macs, MACAddresses.new ct st macs ≠ .ok v := by
  obtain ⟨d, sp⟩ := s
  have key : v.macs.length = v.n.toNat + 1 ∧ v.ctag = [] ∧ v.stag = [] := by
    match d with
    | [] => rw [show MACAddresses.codec.parse ⟨[], sp⟩ = .err .unexpectedEOF from rfl] at h; cases h
    | n :: r =>
      rw [MACAddresses.parse_eq] at h
      split at h
      · cases h
      · split at h
        · cases h
        · split at h
          · cases h
          · cases h
            exact ⟨by simp, rfl, rfl⟩
  refine ⟨key.1, key.2.1, key.2.2, ?_⟩
  intro ct st macs hv
  unfold MACAddresses.new at hv
  split at hv
  · cases hv
    have h1 := key.1
    simp at h1
    omega
  · cases hv

/-- C40, as far as it goes: if the element is accepted at all, the addresses given come first, and one address made of
the octets of the tags (or of whatever follows) comes behind them. -/
theorem C40_MACAddresses_partial (ct st : Bytes) (macs : List Bytes) (h1 : macs.length < 256)
    (h2 : ∀ m ∈ macs, m.length = 6) (h3 : ct.length < 256) (h4 : st.length < 256) (tail sp : Bytes) (v : MACAddresses)
    (w : Bytes) (hw : MACAddresses.build (some ct) (some st) macs = .ok w)
    (h : MACAddresses.codec.parse ⟨w ++ tail, sp⟩ = .ok v) :
    v.n.toNat = macs.length ∧ ∃ x, v.macs = macs ++ [x] ∧
      x = (([UInt8.ofNat ct.length] ++ ct ++ [UInt8.ofNat st.length] ++ st ++ tail).take 6) := by
  rw [C52_MACAddresses ct st macs h1 h2 h3 h4] at hw
  cases hw
  have hn : (UInt8.ofNat macs.length).toNat = macs.length := by simp; omega
  have chunks : ∀ (macs : List Bytes) (r : Bytes), (∀ m ∈ macs, m.length = 6) →
      (List.range (macs.length + 1)).map (fun i => ((macs.flatten ++ r).drop (6 * i)).take 6) = macs ++ [r.take 6] := by
    intro macs
    induction macs with
    | nil => intro r _; simp
    | cons m t ih =>
      intro r hm
      have hl := hm m (List.mem_cons_self ..)
      rw [List.length_cons, List.range_succ_eq_map, List.map_cons, List.map_map, List.cons_append,
        ← ih r fun x hx => hm x (List.mem_cons_of_mem _ hx)]
      congr 1
      · simp [hl]
      · apply List.map_congr_left
        intro i _
        simp only [Function.comp, List.flatten_cons, List.append_assoc]
        rw [show 6 * (i + 1) = m.length + 6 * i by omega, List.drop_append, List.drop_of_length_le (by omega)]
        simp
  have e : [UInt8.ofNat macs.length] ++ macs.flatten ++ [UInt8.ofNat ct.length] ++ ct ++ [UInt8.ofNat st.length] ++ st
      ++ tail = UInt8.ofNat macs.length :: (macs.flatten ++
        ([UInt8.ofNat ct.length] ++ ct ++ [UInt8.ofNat st.length] ++ st ++ tail)) := by simp
  rw [e, MACAddresses.parse_eq, hn, chunks macs _ h2] at h
  split at h
  · cases h
  · split at h
    · cases h
    · split at h
      · cases h
      · cases h
        exact ⟨hn, _, rfl, rfl⟩

/-- C41 is false: it panics exactly on the payloads that end behind the address too many. -/
theorem C41_MACAddresses_violated (n : UInt8) (r sp : Bytes) :
    MACAddresses.codec.parse ⟨n :: r, sp⟩ = .panic ↔ r.length = 6 * (n.toNat + 1) := by
  rw [MACAddresses.parse_eq]
  by_cases c : r.length < 6 * (n.toNat + 1)
  · rw [if_pos c]
    exact ⟨fun h => (by cases h), fun h => by omega⟩
  · rw [if_neg c]
    cases hr : r.drop (6 * (n.toNat + 1)) with
    | nil =>
      have := congrArg List.length hr
      simp at this
      exact ⟨fun _ => by omega, fun _ => rfl⟩
    | cons t rest =>
      have := congrArg List.length hr
      simp at this
      refine ⟨fun h => ?_, fun h => by omega⟩
      simp only at h
      split at h <;> cases h

/-- C41: all other payloads are answered. -/
theorem C41_MACAddresses_partial (d sp : Bytes) (h : ∀ n : UInt8, d.head? = some n → d.length ≠ 7 + 6 * n.toNat) :
    MACAddresses.codec.parse ⟨d, sp⟩ ≠ .panic := by
  match d with
  | [] => rw [show MACAddresses.codec.parse ⟨[], sp⟩ = .err .unexpectedEOF from rfl]; simp
  | n :: r =>
    rw [Ne, C41_MACAddresses_violated]
    have := h n rfl
    rw [List.length_cons] at this
    omega

theorem C42_MACAddresses : MACAddresses.codec.Local := by
  intro d sp sp'
  match d with
  | [] => rfl
  | n :: r => rw [MACAddresses.parse_eq, MACAddresses.parse_eq]

/-- C43: for given tags the constructor succeeds exactly up to 255 addresses, and panics with more. -/
theorem C43_MACAddresses_partial (ct st : Bytes) (macs : List Bytes) :
    ((∃ w, MACAddresses.build (some ct) (some st) macs = .ok w) ↔ macs.length < 256) ∧
    (MACAddresses.build (some ct) (some st) macs = .panic ↔ 256 ≤ macs.length) := by
  have h := MACAddresses.marshal_room
    ⟨UInt8.ofNat macs.length, macs, UInt8.ofNat ct.length, ct, UInt8.ofNat st.length, st⟩
  have hb : MACAddresses.build (some ct) (some st) macs = MACAddresses.codec.marshal
    ⟨UInt8.ofNat macs.length, macs, UInt8.ofNat ct.length, ct, UInt8.ofNat st.length, st⟩ := rfl
  rw [hb]
  have hm : (UInt8.ofNat macs.length).toNat = macs.length % 256 := by simp
  unfold MACAddresses.marshalLen at h
  simp only [hm] at h
  by_cases c : macs.length < 256
  · rw [if_pos (by omega)] at h
    obtain ⟨w, hw⟩ := h
    rw [hw]
    exact ⟨⟨fun _ => c, fun _ => ⟨w, rfl⟩⟩, ⟨fun h => (by cases h), fun h => by omega⟩⟩
  · rw [if_neg (by omega)] at h
    rw [h]
    exact ⟨⟨fun h => (by obtain ⟨_, h⟩ := h; cases h), fun h => absurd h c⟩, ⟨fun _ => by omega, fun _ => rfl⟩⟩

/-- C43 is false: without one of the tags the constructor panics, whatever the addresses. -/
theorem C43_MACAddresses_violated (t : Option Bytes) (macs : List Bytes) :
    MACAddresses.build none t macs = .panic ∧ MACAddresses.build t none macs = .panic := by
  cases t <;> exact ⟨rfl, rfl⟩

/-- C53 is false: re-encoding whatever was decoded panics. -/
theorem C53_MACAddresses_violated (s : Slice) (v : MACAddresses) (h : MACAddresses.codec.parse s = .ok v) :
    MACAddresses.codec.marshal v = .panic := by
  have hl := (C40_MACAddresses_violated s v h).1
  have hr := MACAddresses.marshal_room v
  rw [if_neg (by unfold MACAddresses.marshalLen; simp only; omega)] at hr
  exact hr

example : MACAddresses.codec.parse ⟨[0, 1, 2, 3, 4, 5, 6, 0], []⟩ = .ok ⟨0, [[1, 2, 3, 4, 5, 6]], 0, [], 0, []⟩ := by
  decide
example : MACAddresses.codec.parse ⟨[0, 1, 2, 3, 4, 5, 6], []⟩ = .panic := by decide
example : ∃ w, MACAddresses.build (some [1, 2, 3]) (some [4, 5, 6]) [[1, 2, 3, 4, 5, 6]] = .ok w ∧
    ∃ v, MACAddresses.codec.parse ⟨w ++ [0, 0, 0, 0, 0, 0, 0, 0], []⟩ = .ok v :=
  ⟨[1, 1, 2, 3, 4, 5, 6, 3, 1, 2, 3, 3, 4, 5, 6], by decide,
    ⟨1, [[1, 2, 3, 4, 5, 6], [3, 1, 2, 3, 3, 4]], 5, [], 5, []⟩, by decide⟩

end Fields
end Pfcp
