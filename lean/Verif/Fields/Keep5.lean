/- Property C80, continued: the elements with digit strings, UserID and TraceInformation; with the exact conditions for
the round trips of C31 and C32. -/
import Verif.Fields.Keep4

namespace Pfcp

namespace Text

/-- A hexadecimal digit as Go writes it. -/
def IsLow (c : UInt8) : Prop := (48 ≤ c ∧ c ≤ 57) ∨ (97 ≤ c ∧ c ≤ 102)
instance (c) : Decidable (IsLow c) := by unfold IsLow; infer_instance

theorem IsLow.isHex {c : UInt8} (h : IsLow c) : IsHex c := by
  rcases h with h | h
  · exact Or.inl h
  · exact Or.inr (Or.inl h)
theorem lower_of_isLow : ∀ c, IsLow c → lower c = c := forall_byte (by decide +kernel)
theorem isLow_digit : ∀ n : UInt8, n < 16 → IsLow (hexDigit n) := forall_byte (by decide +kernel)
theorem isLow_val : ∀ c, IsLow c → ∃ x, x < 16 ∧ hexDigit x = c ∧ hexVal c = some x := by
  intro c h
  obtain ⟨v, h1, h2, h3⟩ := hexVal_some c h.isHex
  exact ⟨v, h2, h3.trans (lower_of_isLow c h), h1⟩

theorem map_lower {s : Bytes} (h : ∀ c ∈ s, IsLow c) : s.map lower = s := by
  induction s with
  | nil => rfl
  | cons c r ih =>
    rw [List.map_cons, lower_of_isLow c (h c (List.mem_cons_self ..)), ih fun x hx => h x (List.mem_cons_of_mem _ hx)]

theorem hexEncode_low (b : Bytes) : ∀ c ∈ hexEncode b, IsLow c := by
  induction b with
  | nil => intro c h; cases h
  | cons x r ih =>
    intro c h
    obtain ⟨_, h1, h2⟩ := nibbles x
    simp only [hexEncode, List.mem_cons] at h
    rcases h with rfl | rfl | h
    · exact isLow_digit _ h1
    · exact isLow_digit _ h2
    · exact ih c h

theorem cut_length (b : Bytes) : (swappedBytesToStr b true).length = 2 * b.length - 1 := by
  unfold swappedBytesToStr
  by_cases h : b.length = 0
  · rw [if_pos h, h]; rfl
  · rw [if_neg h]
    simp only [if_true, List.length_take, hexEncode_length, swap_length]
    omega

theorem cut_low (b : Bytes) : ∀ c ∈ swappedBytesToStr b true, IsLow c := by
  intro c hc
  unfold swappedBytesToStr at hc
  split at hc
  · cases hc
  · simp only [if_true] at hc
    exact hexEncode_low _ c (List.mem_of_mem_take hc)

/-- C31, exactly: the strings that come back when they are written with the filler and read with the last digit cut are
those of an odd number of lower-case digits, and the empty one. -/
theorem C31_exact (s : Bytes) : (∃ b, strToSwappedBytes s fillerF = .ok b ∧ swappedBytesToStr b true = s) ↔
    (s = [] ∨ s.length % 2 = 1) ∧ ∀ c ∈ s, IsLow c := by
  constructor
  · rintro ⟨b, _, rfl⟩
    refine ⟨?_, cut_low b⟩
    rw [← List.length_eq_zero_iff, cut_length]
    omega
  · rintro ⟨rfl | h, hl⟩
    · exact ⟨[], by decide, by decide⟩
    · obtain ⟨b, h1, _, h3⟩ := C31_odd s 102 h (fun c hc => (hl c hc).isHex) (by decide)
      exact ⟨b, h1, h3.trans (map_lower hl)⟩

theorem swapped3_low {a b c : UInt8} {x y z : UInt8} (ha : hexVal a = some x) (hb : hexVal b = some y)
    (hc : hexVal c = some z) (hx : x < 16) (hy : y < 16) (hz : z < 16) :
    strToSwappedBytes [a, b, c] fillerF = .ok [y <<< 4 ||| x, (0xf0 : UInt8) ||| z] := by
  have h3 : hexVal 102 = some 15 := by decide
  rw [strToSwapped_odd (by simp)]
  simp only [fillerF, List.cons_append, List.nil_append, hexDecode, ha, hb, hc, h3, Res.ok_bind, swap, List.map_cons,
    List.map_nil]
  rw [(join_key _ _ hx hy).2, (join_key _ _ hz (by decide)).2]
  rfl

theorem swapped2_low {a b : UInt8} {x y : UInt8} (ha : hexVal a = some x) (hb : hexVal b = some y)
    (hx : x < 16) (hy : y < 16) : strToSwappedBytes [a, b] fillerF = .ok [y <<< 4 ||| x] := by
  rw [strToSwapped_even (by simp)]
  simp only [hexDecode, ha, hb, Res.ok_bind, swap, List.map_cons, List.map_nil]
  rw [(join_key _ _ hx hy).2]

/-- A country code of three digits, and a network code of two, or of three the last of which is not the filler. -/
def GoodPLMN (mcc mnc : Bytes) : Prop :=
  mcc.length = 3 ∧ (mnc.length = 2 ∨ mnc.length = 3 ∧ mnc[2]? ≠ some 102) ∧ (∀ c ∈ mcc, IsLow c) ∧ ∀ c ∈ mnc, IsLow c

theorem decodePLMN_good {b mcc mnc : Bytes} (h : decodePLMN b = .ok (mcc, mnc)) : GoodPLMN mcc mnc := by
  match b with
  | [] => cases h
  | [_] => cases h
  | [_, _] => cases h
  | x :: y :: z :: r =>
    have hx := nibbles x
    have hy := nibbles y
    have hz := nibbles z
    unfold decodePLMN at h
    simp only [hexEncode, index, List.getElem?_cons_zero, List.getElem?_cons_succ, Res.ok_bind, Res.pure_eq] at h
    injection h with h
    injection h with h1 h2
    subst h1
    by_cases c : hexDigit (y >>> 4) = 102
    · rw [if_neg (by simpa using c)] at h2
      subst h2
      refine ⟨rfl, Or.inl rfl, ?_, ?_⟩
      · intro d hd
        simp only [List.mem_cons, List.not_mem_nil, or_false] at hd
        rcases hd with rfl | rfl | rfl
        · exact isLow_digit _ hx.2.2
        · exact isLow_digit _ hx.2.1
        · exact isLow_digit _ hy.2.2
      · intro d hd
        simp only [List.mem_cons, List.not_mem_nil, or_false] at hd
        rcases hd with rfl | rfl
        · exact isLow_digit _ hz.2.2
        · exact isLow_digit _ hz.2.1
    · rw [if_pos c] at h2
      subst h2
      refine ⟨rfl, Or.inr ⟨rfl, by simpa using c⟩, ?_, ?_⟩
      · intro d hd
        simp only [List.mem_cons, List.not_mem_nil, or_false] at hd
        rcases hd with rfl | rfl | rfl
        · exact isLow_digit _ hx.2.2
        · exact isLow_digit _ hx.2.1
        · exact isLow_digit _ hy.2.2
      · intro d hd
        simp only [List.cons_append, List.nil_append, List.mem_cons, List.not_mem_nil, or_false] at hd
        rcases hd with rfl | rfl | rfl
        · exact isLow_digit _ hz.2.2
        · exact isLow_digit _ hz.2.1
        · exact isLow_digit _ hy.2.1

theorem GoodPLMN.round {mcc mnc : Bytes} (h : GoodPLMN mcc mnc) :
    ∃ p, p.length = 3 ∧ encodePLMN mcc mnc = .ok p ∧ decodePLMN p = .ok (mcc, mnc) := by
  obtain ⟨h1, h2, h3, h4⟩ := h
  match mcc, h1 with
  | [a, b, c], _ =>
    obtain ⟨x, x1, x2, x3⟩ := isLow_val a (h3 a (by simp))
    obtain ⟨y, y1, y2, y3⟩ := isLow_val b (h3 b (by simp))
    obtain ⟨z, z1, z2, z3⟩ := isLow_val c (h3 c (by simp))
    rcases h2 with h2 | ⟨h2, h5⟩
    · match mnc, h2 with
      | [m, n], _ =>
        obtain ⟨u, u1, u2, u3⟩ := isLow_val m (h4 m (by simp))
        obtain ⟨t, t1, t2, t3⟩ := isLow_val n (h4 n (by simp))
        refine ⟨[y <<< 4 ||| x, (0xf0 : UInt8) ||| z, t <<< 4 ||| u], rfl, ?_, ?_⟩
        · unfold encodePLMN
          rw [swapped3_low x3 y3 z3 x1 y1 z1, swapped2_low u3 t3 u1 t1]
          rfl
        · unfold decodePLMN
          rw [f0_key z1]
          simp only [hexEncode, (join_key _ _ y1 x1).1.1, (join_key _ _ y1 x1).1.2, (join_key 15 _ (by decide) z1).1.1,
            (join_key 15 _ (by decide) z1).1.2, (join_key _ _ t1 u1).1.1, (join_key _ _ t1 u1).1.2, x2, y2, z2, u2, t2]
          rfl
    · match mnc, h2 with
      | [m, n, o], _ =>
        obtain ⟨u, u1, u2, u3⟩ := isLow_val m (h4 m (by simp))
        obtain ⟨t, t1, t2, t3⟩ := isLow_val n (h4 n (by simp))
        obtain ⟨q, q1, q2, q3⟩ := isLow_val o (h4 o (by simp))
        have h6 : o ≠ 102 := by simpa using h5
        refine ⟨[y <<< 4 ||| x, q <<< 4 ||| z, t <<< 4 ||| u], rfl, ?_, ?_⟩
        · unfold encodePLMN
          rw [swapped3_low x3 y3 z3 x1 y1 z1, swapped3_low u3 t3 q3 u1 t1 q1]
          simp only [Res.ok_bind, List.length_cons, List.length_nil]
          rw [if_neg (by omega)]
          simp only [index, List.getElem?_cons_zero, List.getElem?_cons_succ, Res.ok_bind, Res.pure_eq]
          rw [plmn_key z1 q1]
        · unfold decodePLMN
          simp only [hexEncode, (join_key _ _ y1 x1).1.1, (join_key _ _ y1 x1).1.2, (join_key _ _ q1 z1).1.1,
            (join_key _ _ q1 z1).1.2, (join_key _ _ t1 u1).1.1, (join_key _ _ t1 u1).1.2, x2, y2, z2, u2, t2, q2]
          simp only [index, List.getElem?_cons_zero, List.getElem?_cons_succ, Res.ok_bind, Res.pure_eq, ne_eq, h6,
            not_false_eq_true, if_true]
          rfl

/-- C32, exactly: the pairs of strings that come back. -/
theorem C32_exact (mcc mnc : Bytes) : (∃ p, encodePLMN mcc mnc = .ok p ∧ decodePLMN p = .ok (mcc, mnc)) ↔
    mcc.length = 3 ∧ (mnc.length = 2 ∨ mnc.length = 3 ∧ mnc[2]? ≠ some 102) ∧
      (∀ c ∈ mcc, IsLow c) ∧ ∀ c ∈ mnc, IsLow c := by
  constructor
  · rintro ⟨p, _, h⟩
    exact decodePLMN_good h
  · intro h
    obtain ⟨p, _, h1, h2⟩ := GoodPLMN.round h
    exact ⟨p, h1, h2⟩

example : ∃ p, encodePLMN [52, 52, 48] [49, 97, 48] = .ok p ∧ decodePLMN p = .ok ([52, 52, 48], [49, 97, 48]) :=
  (C32_exact _ _).2 (by decide)
example : ¬ ∃ p, encodePLMN [52, 52, 48] [49, 48, 102] = .ok p ∧ decodePLMN p = .ok ([52, 52, 48], [49, 48, 102]) := by
  rw [C32_exact]; decide
example : ¬ ∃ b, strToSwappedBytes [49, 50] fillerF = .ok b ∧ swappedBytesToStr b true = [49, 50] := by
  rw [C31_exact]; decide

end Text

namespace Fields
open Text

/-! ### UserID -/

/-- A digit string of `n` octets: two digits each, but one in the last. -/
def DigitsKept (c : Bool) (n : UInt8) (s : Bytes) : Prop :=
  (c = false → n = 0) ∧ s.length = 2 * n.toNat - 1 ∧ ∀ d ∈ s, IsLow d

/-- C80. Digit strings of an odd number of digits, or empty; stored lengths are those of the encoding; nothing is stored
that is not announced. -/
theorem C80_UserID (v : UserID) : UserID.codec.Keeps v ↔
    DigitsKept (bit v.flags 0) v.imsiLen v.imsi ∧ DigitsKept (bit v.flags 1) v.imeiLen v.imei ∧
    DigitsKept (bit v.flags 2) v.msisdnLen v.msisdn ∧
    v.nai.length = v.naiLen.toNat ∧ (bit v.flags 3 = false → v.naiLen = 0) := by
  have key : ∀ {c : Bool} {n : UInt8} {s : Bytes}, DigitsKept c n s → ∃ b : Bytes, b.length < 256 ∧
      n = (if c then UInt8.ofNat b.length else 0) ∧ s = (if c then s else []) ∧
      (c = true → strToSwappedBytes s fillerF = .ok b ∧ UserID.digits b = s) := by
    rintro c n s ⟨h1, h2, h3⟩
    have hn := n.toNat_lt
    cases c with
    | false =>
      rw [h1 rfl] at h2 ⊢
      exact ⟨[], by simp, rfl, List.length_eq_zero_iff.1 h2, fun h => by cases h⟩
    | true =>
      obtain ⟨b, e1, e2⟩ := (C31_exact s).2 ⟨by rw [← List.length_eq_zero_iff]; omega, h3⟩
      have hb := cut_length b
      rw [e2] at hb
      have : b.length = n.toNat := by
        by_cases h0 : s = []
        · subst h0
          have : strToSwappedBytes [] fillerF = .ok [] := by decide
          rw [this] at e1
          cases e1
          simp at h2 ⊢
          omega
        · have := mt List.length_eq_zero_iff.1 h0
          omega
      refine ⟨b, by omega, ?_, rfl, fun _ => ⟨e1, e2⟩⟩
      rw [this]
      simp
  constructor
  · rintro ⟨w, _, hp⟩
    obtain ⟨fl, i, e, m, n, _, _, hi, he, hm, hn, rfl⟩ := UserID.takes _ v (hp [])
    have hk : ∀ (c : Bool) (b : Bytes), b.length < 256 →
        DigitsKept c (if c then UInt8.ofNat b.length else 0) (if c then UserID.digits b else []) := by
      intro c b hb
      cases c with
      | false => exact ⟨fun _ => rfl, rfl, by simp⟩
      | true =>
        refine ⟨fun h => (by cases h), ?_, cut_low b⟩
        show (UserID.digits b).length = _
        unfold UserID.digits
        rw [cut_length]
        simp
        omega
    unfold UserID.value
    simp only [← has1stBit_eq, ← has2ndBit_eq, ← has3rdBit_eq, ← has4thBit_eq]
    refine ⟨hk _ i hi, hk _ e he, hk _ m hm, ?_, fun h => by rw [h]; rfl⟩
    cases has4thBit fl
    · rfl
    · simp; omega
  · obtain ⟨fl, l1, i, l2, e, l3, m, l4, n⟩ := v
    simp only [← has1stBit_eq, ← has2ndBit_eq, ← has3rdBit_eq, ← has4thBit_eq]
    rintro ⟨k1, k2, k3, k4, k5⟩
    obtain ⟨bi, li, rfl, si, ei⟩ := key k1
    obtain ⟨be, le, rfl, se, ee⟩ := key k2
    obtain ⟨bm, lm, rfl, sm, em⟩ := key k3
    obtain ⟨bn, ln, hl4, hn⟩ : ∃ bn : Bytes, bn.length < 256 ∧ l4 = (if has4thBit fl then UInt8.ofNat bn.length else 0) ∧
        n = (if has4thBit fl then bn else []) := by
      have := l4.toNat_lt
      refine ⟨n, by omega, ?_, ?_⟩
      · rw [k4]
        cases h : has4thBit fl
        · exact k5 h
        · simp
      · cases h : has4thBit fl
        · rw [k5 h] at k4
          exact List.length_eq_zero_iff.1 k4
        · rfl
    subst hl4 hn
    have hm := UserID.emits fl bi be bm bn i e m li le lm ln (fun h => (ei h).1) (fun h => (ee h).1) (fun h => (em h).1)
    refine ⟨UserID.wire fl bi be bm bn, ?_, fun sp => ?_⟩
    · rw [← si, ← se, ← sm] at hm
      exact hm
    · have hr := UserID.reads fl bi be bm bn li le lm ln [] sp
      rw [List.append_nil] at hr
      rw [hr]
      unfold UserID.value
      have hd : ∀ {c : Bool} {b s : Bytes}, (c = true → strToSwappedBytes s fillerF = .ok b ∧ UserID.digits b = s) →
          s = (if c then s else []) → (if c then UserID.digits b else []) = s := by
        intro c b s h1 h2
        cases c with
        | false => exact h2.symm
        | true => exact (h1 rfl).2
      rw [hd ei si, hd ee se, hd em sm]

example : UserID.codec.Keeps ⟨4, 0, [], 0, [], 2, [49, 50, 51], 0, []⟩ :=
  (C80_UserID _).2 (by unfold DigitsKept; decide)
example : ¬ UserID.codec.Keeps ⟨4, 0, [], 0, [], 1, [49, 50], 0, []⟩ := by
  rw [C80_UserID]; unfold DigitsKept; decide

/-! ### TraceInformation -/

/-- C80. The decoder drops the events, the interfaces and the address, so that they must be absent; their lengths may be
anything, since zeros are written for them. -/
theorem C80_TraceInformation (v : TraceInformation) : TraceInformation.codec.Keeps v ↔
    v.events = [] ∧ v.ifs = [] ∧ v.ip = none ∧ v.id.length = 3 ∧
    v.mcc.length = 3 ∧ (v.mnc.length = 2 ∨ v.mnc.length = 3 ∧ v.mnc[2]? ≠ some 102) ∧
    (∀ c ∈ v.mcc, IsLow c) ∧ ∀ c ∈ v.mnc, IsLow c := by
  constructor
  · rintro ⟨w, _, hp⟩
    have hp := hp []
    obtain ⟨_, h⟩ := P.run_inv hp
    unfold TraceInformation.parseP at h
    obtain ⟨_, o0, h0, h⟩ := P.bind_inv h
    obtain ⟨p, o1, h1, h⟩ := P.bind_inv h
    obtain ⟨id, o2, h2, h⟩ := P.bind_inv h
    obtain ⟨n1, _, _, h⟩ := P.bind_inv h
    obtain ⟨dp, _, _, h⟩ := P.bind_inv h
    obtain ⟨n2, _, _, h⟩ := P.bind_inv h
    obtain ⟨n3, _, _, h⟩ := P.bind_inv h
    cases h
    refine ⟨rfl, rfl, rfl, ?_, ?_⟩
    · unfold P.bytes Slice.sub at h2
      split at h2
      · rw [Res.ok_bind] at h2
        rename_i hc
        cases h2
        have := hc.2
        unfold Slice.cap at this
        simp at this ⊢
        omega
      · cases h2
    · unfold TraceInformation.parsePLMN at h1
      obtain ⟨x, _, h1⟩ := Res.bind_eq_ok.1 h1
      obtain ⟨r, hr, h1⟩ := Res.bind_eq_ok.1 h1
      cases h1
      exact decodePLMN_good hr
  · obtain ⟨mcc, mnc, id, n1, ev, dp, n2, fs, n3, ip⟩ := v
    simp only
    rintro ⟨rfl, rfl, rfl, hi, hg⟩
    obtain ⟨p, hp, he, hd⟩ := GoodPLMN.round hg
    have ha : (⟨mcc, mnc, id, n1, List.replicate n1.toNat 0, dp, n2, List.replicate n2.toNat 0, n3,
        some (List.replicate n3.toNat 0)⟩ : TraceInformation).Agree := ⟨hi, by simp, by simp, by simp [IP.val]⟩
    refine ⟨TraceInformation.enc p ⟨mcc, mnc, id, n1, List.replicate n1.toNat 0, dp, n2, List.replicate n2.toNat 0, n3,
        some (List.replicate n3.toNat 0)⟩, ?_, fun sp => ?_⟩
    · have hl := TraceInformation.enc_length hp _ ha
      show W.marshal _ (TraceInformation.marshalLen ⟨mcc, mnc, id, n1, List.replicate n1.toNat 0, dp, n2,
        List.replicate n2.toNat 0, n3, some (List.replicate n3.toNat 0)⟩) = _
      rw [← hl]
      have hplmn : W.Emits (TraceInformation.plmnW mcc mnc) p := by
        intro pre n hn
        unfold TraceInformation.plmnW
        rw [he, Res.ok_bind]
        exact W.Emits.copy p hp pre n hn
      have hz : ∀ n : UInt8, W.Emits (W.copy n.toNat []) (List.replicate n.toNat 0) := by
        intro n
        have := W.Emits.copy_short (n := n.toNat) [] (by simp)
        simpa using this
      unfold TraceInformation.enc
      simp only [List.append_assoc, IP.val]
      refine W.Emits.marshal_minLen (by simp [hi, hp]; omega) (W.Emits.seq hplmn (W.Emits.seq (W.Emits.copy _ hi) ?_))
      refine W.Emits.need (Nat.zero_le _) (W.Emits.seq (W.Emits.u8 _) (W.Emits.need (by simp)
        (W.Emits.seq (hz n1) ?_)))
      refine W.Emits.need (Nat.zero_le _) (W.Emits.seq (W.Emits.u8 _) ?_)
      refine W.Emits.need (Nat.zero_le _) (W.Emits.seq (W.Emits.u8 _) (W.Emits.need (by simp)
        (W.Emits.seq (hz n2) ?_)))
      exact W.Emits.need (Nat.zero_le _) (W.Emits.seq (W.Emits.u8 _) (W.Emits.need (by simp)
        (W.Emits.tail (hz n3))))
    · have := TraceInformation.reads p hp _ ha hd [] sp
      rw [List.append_nil] at this
      exact this

example : TraceInformation.codec.Keeps ⟨[52, 52, 48], [49, 48], [1, 2, 3], 5, [], 2, 0, [], 4, none⟩ :=
  (C80_TraceInformation _).2 (by decide)
example : ¬ TraceInformation.codec.Keeps ⟨[52, 52, 48], [49, 48], [1, 2, 3], 1, [9], 2, 0, [], 4, none⟩ := by
  rw [C80_TraceInformation]; decide

end Fields
end Pfcp
