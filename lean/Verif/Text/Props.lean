/- Property theorems C31 (digit strings), C32 (PLMN identities), C33 (domain names). -/
import Verif.Text.Lemmas

namespace Pfcp
namespace Text

theorem strToSwapped_even {s f : Bytes} (h : s.length % 2 = 0) :
    strToSwappedBytes s f = hexDecode s >>= fun raw => .ok (swap raw) := by
  unfold strToSwappedBytes; rw [if_pos h]; rfl
theorem strToSwapped_odd {s f : Bytes} (h : s.length % 2 = 1) :
    strToSwappedBytes s f = hexDecode (s ++ f) >>= fun raw => .ok (swap raw) := by
  unfold strToSwappedBytes; rw [if_neg (by omega)]; rfl

/-! ### C31 -/

/-- C31, even number of digits: read back without cutting. -/
theorem C31_even (s f : Bytes) (hl : s.length % 2 = 0) (hs : ∀ c ∈ s, IsHex c) :
    ∃ b, strToSwappedBytes s f = .ok b ∧ 2 * b.length = s.length ∧ swappedBytesToStr b false = s.map lower := by
  obtain ⟨raw, h1, h2, h3⟩ := hexDecode_ok s hl hs
  refine ⟨swap raw, by rw [strToSwapped_even hl, h1]; rfl, by rw [swap_length]; exact h2, ?_⟩
  unfold swappedBytesToStr
  rw [swap_length, swap_swap]
  by_cases h0 : raw.length = 0
  · rw [if_pos h0]
    have : s = [] := List.length_eq_zero_iff.1 (by omega)
    rw [this]; rfl
  · rw [if_neg h0]; exact h3

/-- C31, odd number of digits, filled with one digit: read back with the last digit cut. -/
theorem C31_odd (s : Bytes) (x : UInt8) (hl : s.length % 2 = 1) (hs : ∀ c ∈ s, IsHex c) (hx : IsHex x) :
    ∃ b, strToSwappedBytes s [x] = .ok b ∧ 2 * b.length = s.length + 1 ∧ swappedBytesToStr b true = s.map lower := by
  obtain ⟨raw, h1, h2, h3⟩ := hexDecode_ok (s ++ [x]) (by rw [List.length_append, List.length_singleton]; omega) (by
    intro c hc
    rcases List.mem_append.1 hc with hc | hc
    · exact hs c hc
    · rw [List.mem_singleton.1 hc]; exact hx)
  rw [List.length_append, List.length_singleton] at h2
  refine ⟨swap raw, by rw [strToSwapped_odd hl, h1]; rfl, by rw [swap_length]; exact h2, ?_⟩
  unfold swappedBytesToStr
  rw [swap_length, swap_swap, if_neg (by omega)]
  simp only [if_true]
  rw [h3, List.map_append]
  exact List.take_left' (by simp)

/-- C31: anything that is not a digit string is refused, with an error. -/
theorem C31_refuses (s : Bytes) (x : UInt8) (h : ∃ c ∈ s, ¬ IsHex c) : strToSwappedBytes s [x] = .err .hexDecode := by
  by_cases hl : s.length % 2 = 0
  · rw [strToSwapped_even hl, hexDecode_err s h]; rfl
  · rw [strToSwapped_odd (by omega), hexDecode_err (s ++ [x]) (by
      obtain ⟨c, hm, hc⟩ := h
      exact ⟨c, List.mem_append_left _ hm, hc⟩)]; rfl

/-- C31: every byte string is the coding of the digits it is read as. -/
theorem C31_bytes (b f : Bytes) : strToSwappedBytes (swappedBytesToStr b false) f = .ok b := by
  unfold swappedBytesToStr
  by_cases h0 : b.length = 0
  · rw [if_pos h0, List.length_eq_zero_iff.1 h0]; rfl
  · rw [if_neg h0]
    simp only [Bool.false_eq_true, if_false]
    rw [strToSwapped_even (by rw [hexEncode_length]; omega), hexDecode_encode, Res.ok_bind, swap_swap]

/-- C31: the layout. The first digit of each pair is in the lower half of the octet. -/
theorem C31_layout (s f : Bytes) (b : Bytes) (hl : s.length % 2 = 0) (h : strToSwappedBytes s f = .ok b) :
    ∀ i, i < b.length → ∃ x y v w, s[2 * i]? = some x ∧ s[2 * i + 1]? = some y ∧ hexVal x = some v ∧
      hexVal y = some w ∧ b[i]? = some (w <<< 4 ||| v) := by
  rw [strToSwapped_even hl] at h
  clear hl
  induction s using hexDecode.induct generalizing b with
  | case1 => simp [hexDecode, swap] at h; subst h; intro i hi; exact absurd hi (Nat.not_lt_zero _)
  | case2 => simp [hexDecode] at h
  | case3 a c r x y hy hx ih =>
    unfold hexDecode at h
    simp only [hx, hy] at h
    cases hr : hexDecode r with
    | err e => rw [hr] at h; cases h
    | panic => rw [hr] at h; cases h
    | ok t =>
      rw [hr] at h
      simp only [Res.ok_bind, Res.ok.injEq] at h
      subst h
      intro i hi
      have hx1 : x < 16 := by
        have : IsHex a := Classical.byContradiction fun hn => by rw [hexVal_none a hn] at hx; cases hx
        obtain ⟨v, hv, hv1, _⟩ := hexVal_some a this
        rw [hx] at hv; cases hv; exact hv1
      have hy1 : y < 16 := by
        have : IsHex c := Classical.byContradiction fun hn => by rw [hexVal_none c hn] at hy; cases hy
        obtain ⟨v, hv, hv1, _⟩ := hexVal_some c this
        rw [hy] at hv; cases hv; exact hv1
      cases i with
      | zero =>
        refine ⟨a, c, x, y, rfl, rfl, hx, hy, ?_⟩
        show some (flip _) = _
        rw [(join_key x y hx1 hy1).2]
      | succ i =>
        obtain ⟨p, q, v, w, h1, h2, h3, h4, h5⟩ := ih (swap t) (by rw [hr]; rfl) i (by
          simp only [swap_length, List.length_cons] at hi ⊢; omega)
        refine ⟨p, q, v, w, ?_, ?_, h3, h4, h5⟩
        · rw [show 2 * (i + 1) = 2 * i + 1 + 1 by omega]; exact h1
        · rw [show 2 * (i + 1) + 1 = 2 * i + 1 + 1 + 1 by omega]; exact h2
  | case4 a c r hn =>
    unfold hexDecode at h
    split at h
    · rename_i x y hx hy
      exact absurd hy (by intro hy; exact hn _ _ hx hy)
    · cases h

/-- C31: the digits are the usual ones ('0'-'9', 'a'-'f'). -/
theorem C31_digits : (List.range 16).map (fun n => hexDigit (UInt8.ofNat n))
    = [48, 49, 50, 51, 52, 53, 54, 55, 56, 57, 97, 98, 99, 100, 101, 102] := by decide

/-- What happens with an even number of digits when the last digit is cut all the same: it is lost. -/
theorem C31_even_cut (s f b : Bytes) (hl : s.length % 2 = 0) (hs : ∀ c ∈ s, IsHex c)
    (h : strToSwappedBytes s f = .ok b) : swappedBytesToStr b true = (s.map lower).take (s.length - 1) := by
  obtain ⟨raw, h1, h2, h3⟩ := hexDecode_ok s hl hs
  rw [strToSwapped_even hl, h1] at h
  cases h
  unfold swappedBytesToStr
  rw [swap_length, swap_swap]
  by_cases h0 : raw.length = 0
  · rw [if_pos h0]
    have : s = [] := List.length_eq_zero_iff.1 (by omega)
    rw [this]; rfl
  · rw [if_neg h0]
    simp only [if_true]
    rw [h3, List.length_map]

example : strToSwappedBytes [49, 50, 51] [102] = .ok [0x21, 0xf3] := by decide
example : ∀ c ∈ ([49, 97, 70] : Bytes), IsHex c := by decide

/-! ### C32 -/

/-- A decimal digit. -/
def IsDec (c : UInt8) : Prop := 48 ≤ c ∧ c ≤ 57
instance (c) : Decidable (IsDec c) := by unfold IsDec; infer_instance

theorem dec_val : ∀ c, IsDec c → hexVal c = some (c - 48) ∧ c - 48 < 16 ∧ hexDigit (c - 48) = c ∧ c ≠ 102 := by
  exact forall_byte (by decide +kernel)

/-- The first octets of both codings of a three-digit string. -/
theorem swapped3 {a b c : UInt8} (ha : IsDec a) (hb : IsDec b) (hc : IsDec c) :
    strToSwappedBytes [a, b, c] fillerF = .ok [(b - 48) <<< 4 ||| (a - 48), (0xf0 : UInt8) ||| (c - 48)] := by
  obtain ⟨a1, a2, _⟩ := dec_val a ha
  obtain ⟨b1, b2, _⟩ := dec_val b hb
  obtain ⟨c1, c2, _⟩ := dec_val c hc
  have h3 : hexVal 102 = some 15 := by decide
  rw [strToSwapped_odd (by simp)]
  simp only [fillerF, List.cons_append, List.nil_append, hexDecode, a1, b1, c1, h3, Res.ok_bind, swap, List.map_cons,
    List.map_nil]
  rw [(join_key _ _ a2 b2).2, (join_key _ 15 c2 (by decide)).2]
  rfl
theorem swapped2 {a b : UInt8} (ha : IsDec a) (hb : IsDec b) :
    strToSwappedBytes [a, b] fillerF = .ok [(b - 48) <<< 4 ||| (a - 48)] := by
  obtain ⟨a1, a2, _⟩ := dec_val a ha
  obtain ⟨b1, b2, _⟩ := dec_val b hb
  rw [strToSwapped_even (by simp)]
  simp only [hexDecode, a1, b1, Res.ok_bind, swap, List.map_cons, List.map_nil]
  rw [(join_key _ _ a2 b2).2]

theorem plmn_key {c n : UInt8} (hc : c < 16) (hn : n < 16) :
    ((((0xf0 : UInt8) ||| c) &&& (0x0f : UInt8)) ||| ((((0xf0 : UInt8) ||| n) <<< (4 : UInt8)) &&& (0xf0 : UInt8))) = n <<< 4 ||| c := by
  have key : ∀ i j : Fin 16, ((((0xf0 : UInt8) ||| UInt8.ofNat i.val) &&& (0x0f : UInt8)) |||
      ((((0xf0 : UInt8) ||| UInt8.ofNat j.val) <<< (4 : UInt8)) &&& (0xf0 : UInt8)))
      = UInt8.ofNat j.val <<< 4 ||| UInt8.ofNat i.val := by decide +kernel
  have := key ⟨c.toNat, hc⟩ ⟨n.toNat, hn⟩
  simp only [UInt8.ofNat_toNat] at this
  exact this

theorem f0_key {c : UInt8} (hc : c < 16) : ((0xf0 : UInt8) ||| c) = (15 : UInt8) <<< 4 ||| c := by rfl

/-- C32, two-digit network code: three octets, laid out as 3GPP has it, and the round trip. -/
theorem C32_two (a b c m n : UInt8) (ha : IsDec a) (hb : IsDec b) (hc : IsDec c) (hm : IsDec m) (hn : IsDec n) :
    encodePLMN [a, b, c] [m, n] = .ok [(b - 48) <<< 4 ||| (a - 48), (0xf0 : UInt8) ||| (c - 48), (n - 48) <<< 4 ||| (m - 48)] ∧
    decodePLMN [(b - 48) <<< 4 ||| (a - 48), (0xf0 : UInt8) ||| (c - 48), (n - 48) <<< 4 ||| (m - 48)]
      = .ok ([a, b, c], [m, n]) := by
  constructor
  · unfold encodePLMN
    rw [swapped3 ha hb hc, swapped2 hm hn]
    rfl
  · obtain ⟨_, a2, a3, _⟩ := dec_val a ha
    obtain ⟨_, b2, b3, _⟩ := dec_val b hb
    obtain ⟨_, c2, c3, _⟩ := dec_val c hc
    obtain ⟨_, m2, m3, _⟩ := dec_val m hm
    obtain ⟨_, n2, n3, _⟩ := dec_val n hn
    unfold decodePLMN
    rw [f0_key c2]
    simp only [hexEncode, (join_key _ _ b2 a2).1.1, (join_key _ _ b2 a2).1.2, (join_key 15 _ (by decide) c2).1.1,
      (join_key 15 _ (by decide) c2).1.2, (join_key _ _ n2 m2).1.1, (join_key _ _ n2 m2).1.2, a3, b3, c3, m3, n3]
    rfl

/-- C32, three-digit network code. -/
theorem C32_three (a b c m n o : UInt8) (ha : IsDec a) (hb : IsDec b) (hc : IsDec c) (hm : IsDec m) (hn : IsDec n)
    (ho : IsDec o) :
    encodePLMN [a, b, c] [m, n, o]
      = .ok [(b - 48) <<< 4 ||| (a - 48), (o - 48) <<< 4 ||| (c - 48), (n - 48) <<< 4 ||| (m - 48)] ∧
    decodePLMN [(b - 48) <<< 4 ||| (a - 48), (o - 48) <<< 4 ||| (c - 48), (n - 48) <<< 4 ||| (m - 48)]
      = .ok ([a, b, c], [m, n, o]) := by
  obtain ⟨_, a2, a3, _⟩ := dec_val a ha
  obtain ⟨_, b2, b3, _⟩ := dec_val b hb
  obtain ⟨_, c2, c3, _⟩ := dec_val c hc
  obtain ⟨_, m2, m3, _⟩ := dec_val m hm
  obtain ⟨_, n2, n3, _⟩ := dec_val n hn
  obtain ⟨_, o2, o3, o4⟩ := dec_val o ho
  constructor
  · unfold encodePLMN
    rw [swapped3 ha hb hc, swapped3 hm hn ho]
    simp only [Res.ok_bind, List.length_cons, List.length_nil]
    rw [if_neg (by omega)]
    simp only [index, List.getElem?_cons_zero, List.getElem?_cons_succ, Res.ok_bind, Res.pure_eq]
    rw [plmn_key c2 o2]
  · unfold decodePLMN
    simp only [hexEncode, (join_key _ _ b2 a2).1.1, (join_key _ _ b2 a2).1.2, (join_key _ _ o2 c2).1.1,
      (join_key _ _ o2 c2).1.2, (join_key _ _ n2 m2).1.1, (join_key _ _ n2 m2).1.2, a3, b3, c3, m3, n3, o3]
    simp only [index, List.getElem?_cons_zero, List.getElem?_cons_succ, Res.ok_bind, Res.pure_eq, ne_eq, o4,
      not_false_eq_true, if_true]
    rfl

/-- C32: decoding three octets never fails, and with fewer it panics. -/
theorem C32_total (b : Bytes) : decodePLMN b = .panic ↔ b.length < 3 := by
  match b with
  | [] => exact ⟨fun _ => by simp, fun _ => rfl⟩
  | [x] => exact ⟨fun _ => by simp, fun _ => rfl⟩
  | [x, y] => exact ⟨fun _ => by simp, fun _ => rfl⟩
  | x :: y :: z :: r =>
    constructor
    · intro h; exact absurd (show decodePLMN (x :: y :: z :: r) = .ok _ from rfl) (by rw [h]; simp)
    · intro h; simp only [List.length_cons] at h; omega

/-- The constructor panics on a network code that is neither two nor at least three digits. -/
theorem C32_short_panics : encodePLMN [48, 48, 49] [49] = .panic ∧ encodePLMN [48, 48, 49] [] = .panic ∧
    encodePLMN [] [48, 49, 50] = .panic := by decide

example : IsDec 52 := by decide
example : encodePLMN [52, 52, 48] [49, 48] = .ok [0x44, 0xf0, 0x01] := by decide

/-! ### C33 -/

/-- C33. Round trip of every name whose labels have at most 255 octets. -/
theorem C33_round_trip (s : Bytes) (h : ∀ l ∈ splitDot s, l.length < 256) :
    ∃ b, encodeFQDN s = .ok b ∧ decodeFQDN b = .ok s := by
  refine ⟨_, encodeFQDN_eq s, ?_⟩
  rw [decodeFQDN_labels _ h, joinDot_splitDot]

/-- The coding of a list of labels, RFC 1035 section 3.1 without the root label. -/
def wireName (ls : List Bytes) : Bytes := ls.flatMap fun l => UInt8.ofNat l.length :: l
/-- Labels separated by dots. -/
def dotted : List Bytes → Bytes
  | [] => []
  | [l] => l
  | l :: ls => l ++ 46 :: dotted ls

theorem wireName_eq : ∀ ls, labels ls = wireName ls
  | [] => rfl
  | l :: ls => by
    rw [labels, wireName_eq ls]
    rfl
theorem dotted_eq : ∀ ls, dotted ls = joinDot ls
  | [] => rfl
  | [l] => rfl
  | l :: l2 :: ls => by
    rw [dotted, joinDot, dotted_eq (l2 :: ls)] <;> simp

/-- C33. The wire form of a name given by labels without dots. -/
theorem C33_layout (ls : List Bytes) (h0 : ls ≠ []) (h : ∀ l ∈ ls, (46 : UInt8) ∉ l) :
    encodeFQDN (dotted ls) = .ok (wireName ls) := by
  rw [encodeFQDN_eq, dotted_eq, splitDot_joinDot ls h0 h, wireName_eq]

/-- C33. Decoding the wire form of labels. -/
theorem C33_decode (ls : List Bytes) (h : ∀ l ∈ ls, l.length < 256) : decodeFQDN (wireName ls) = .ok (dotted ls) := by
  rw [← wireName_eq, decodeFQDN_labels ls h, dotted_eq]

/-- C33. Decoding terminates without leaving its input, for all input. -/
theorem C33_total (b : Bytes) : decodeFQDN b ≠ .panic := decodeFQDN_safe b
theorem C33_encode_total (s : Bytes) : encodeFQDN s ≠ .panic := by rw [encodeFQDN_eq]; simp

/-- Labels longer than that are not representable, and the encoder does not refuse them. -/
theorem C33_long_label_violated : ∃ b v, encodeFQDN (List.replicate 256 97) = .ok b ∧ decodeFQDN b = .ok v ∧
    v ≠ List.replicate 256 97 :=
  ⟨0 :: List.replicate 256 97, 46 :: (List.replicate 97 97 ++ 46 :: List.replicate 97 97), by decide +kernel,
    by decide +kernel, by decide +kernel⟩

example : encodeFQDN [97, 46, 98, 99] = .ok [1, 97, 2, 98, 99] := by decide
example : ∀ l ∈ splitDot [97, 46, 98, 99], l.length < 256 := by decide

/-! ### Cell identities -/

/-- C34 (d). `ParseECI` splits an E-UTRAN cell identity without loss: the first part is everything above the last octet, the
second is the last octet. -/
theorem C34_eci (e : UInt32) :
    (parseECI e).1.toNat = e.toNat / 256 ∧ (parseECI e).2.toNat = e.toNat % 256 := by
  have h : be32 e = [.ofNat (e.toNat / 256 ^ 3), .ofNat (e.toNat / 256 ^ 2), .ofNat (e.toNat / 256 ^ 1),
    .ofNat (e.toNat / 256 ^ 0)] := rfl
  have he : e.toNat < 2 ^ 32 := e.toNat_lt
  unfold parseECI
  rw [h]
  dsimp only [dec32]
  simp only [UInt32.toNat_ofNat', UInt8.toNat_ofNat', beNat, List.foldl]
  constructor <;> simp <;> omega

-- the identity 0x00012345 is cell 0x45 of node 0x123
example : parseECI 0x00012345 = (0x123, 0x45) := by decide +kernel

end Text
end Pfcp
