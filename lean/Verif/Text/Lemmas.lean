/- Lemmas about the text helpers. -/
import Verif.Text.Model

namespace Pfcp
namespace Text

/-! ### Hexadecimal digits -/

/-- Hexadecimal digits, in either case. -/
def IsHex (c : UInt8) : Prop := (48 ≤ c ∧ c ≤ 57) ∨ (97 ≤ c ∧ c ≤ 102) ∨ (65 ≤ c ∧ c ≤ 70)
instance (c) : Decidable (IsHex c) := by unfold IsHex; infer_instance
/-- Lower case of an ASCII letter. -/
def lower (c : UInt8) : UInt8 := if 65 ≤ c ∧ c ≤ 90 then c + 32 else c

theorem hexVal_some : ∀ c, IsHex c → ∃ v, hexVal c = some v ∧ v < 16 ∧ hexDigit v = lower c := by
  intro c h
  have key : ∀ c : UInt8, IsHex c → (hexVal c).isSome = true ∧ (hexVal c).all (fun v => v < 16 && hexDigit v == lower c) :=
    forall_byte (by decide +kernel)
  obtain ⟨h1, h2⟩ := key c h
  cases hv : hexVal c with
  | none => rw [hv] at h1; cases h1
  | some v =>
    rw [hv] at h2
    simp only [Option.all_some, Bool.and_eq_true, decide_eq_true_eq, beq_iff_eq] at h2
    exact ⟨v, rfl, h2⟩

theorem hexVal_none : ∀ c, ¬ IsHex c → hexVal c = none := by
  intro c h
  unfold IsHex at h
  unfold hexVal
  rw [if_neg (fun k => h (Or.inl k)), if_neg (fun k => h (Or.inr (Or.inl k))), if_neg (fun k => h (Or.inr (Or.inr k)))]

theorem hexVal_digit : ∀ n : UInt8, n < 16 → hexVal (hexDigit n) = some n := forall_byte (by decide +kernel)
theorem hexDigit_isHex : ∀ n : UInt8, n < 16 → IsHex (hexDigit n) := forall_byte (by decide +kernel)
theorem hexDigit_lower : ∀ n : UInt8, n < 16 → lower (hexDigit n) = hexDigit n := forall_byte (by decide +kernel)

/-- A byte of its two nibbles. -/
theorem nibbles (x : UInt8) : ((x >>> 4) <<< 4 ||| (x &&& (0x0f : UInt8))) = x ∧ x >>> 4 < 16 ∧ x &&& (0x0f : UInt8) < 16 := by
  revert x; exact forall_byte (by decide +kernel)

theorem join_key : ∀ a b : UInt8, a < 16 → b < 16 →
    ((a <<< 4 ||| b) >>> 4 = a ∧ (a <<< 4 ||| b) &&& (0x0f : UInt8) = b) ∧
    flip (a <<< 4 ||| b) = b <<< 4 ||| a := by
  intro a b ha hb
  have key : ∀ i j : Fin 16,
      ((UInt8.ofNat i.val <<< 4 ||| UInt8.ofNat j.val) >>> 4 = UInt8.ofNat i.val ∧
        (UInt8.ofNat i.val <<< 4 ||| UInt8.ofNat j.val) &&& (0x0f : UInt8) = UInt8.ofNat j.val) ∧
      flip (UInt8.ofNat i.val <<< 4 ||| UInt8.ofNat j.val) = UInt8.ofNat j.val <<< 4 ||| UInt8.ofNat i.val := by decide +kernel
  have := key ⟨a.toNat, ha⟩ ⟨b.toNat, hb⟩
  simp only [UInt8.ofNat_toNat] at this
  exact this

theorem swap_swap (raw : Bytes) : swap (swap raw) = raw := by
  unfold swap
  rw [List.map_map]
  have : ∀ x : UInt8, (flip ∘ flip) x = x := forall_byte (by decide +kernel)
  rw [show flip ∘ flip = id from funext this, List.map_id]
@[simp] theorem swap_length (raw : Bytes) : (swap raw).length = raw.length := List.length_map _

@[simp] theorem hexEncode_length (b : Bytes) : (hexEncode b).length = 2 * b.length := by
  induction b with
  | nil => rfl
  | cons x r ih => simp only [hexEncode, List.length_cons, ih]; omega

theorem hexDecode_encode (b : Bytes) : hexDecode (hexEncode b) = .ok b := by
  induction b with
  | nil => rfl
  | cons x r ih =>
    obtain ⟨h1, h2, h3⟩ := nibbles x
    simp only [hexEncode, hexDecode, hexVal_digit _ h2, hexVal_digit _ h3, ih, Res.ok_bind, h1]

theorem hexEncode_isHex (b : Bytes) : ∀ c ∈ hexEncode b, IsHex c := by
  induction b with
  | nil => intro c h; cases h
  | cons x r ih =>
    obtain ⟨_, h2, h3⟩ := nibbles x
    intro c h
    rcases List.mem_cons.1 h with rfl | h
    · exact hexDigit_isHex _ h2
    rcases List.mem_cons.1 h with rfl | h
    · exact hexDigit_isHex _ h3
    exact ih c h

theorem hexDecode_ok : ∀ s : Bytes, s.length % 2 = 0 → (∀ c ∈ s, IsHex c) →
    ∃ b, hexDecode s = .ok b ∧ 2 * b.length = s.length ∧ hexEncode b = s.map lower
  | [], _, _ => ⟨[], rfl, rfl, rfl⟩
  | [_], h, _ => by simp at h
  | a :: b :: r, h, hc => by
    obtain ⟨x, hx, hx1, hx2⟩ := hexVal_some a (hc a (by simp))
    obtain ⟨y, hy, hy1, hy2⟩ := hexVal_some b (hc b (by simp))
    obtain ⟨t, ht, hl, he⟩ := hexDecode_ok r (by simp only [List.length_cons] at h; omega)
      (fun c hm => hc c (by simp [hm]))
    refine ⟨(x <<< 4 ||| y) :: t, ?_, ?_, ?_⟩
    · simp only [hexDecode, hx, hy, ht, Res.ok_bind]
    · simp only [List.length_cons]; omega
    · obtain ⟨⟨k1, k2⟩, _⟩ := join_key x y hx1 hy1
      simp only [hexEncode, k1, k2, hx2, hy2, he, List.map_cons]

theorem hexDecode_err : ∀ s : Bytes, (∃ c ∈ s, ¬ IsHex c) → hexDecode s = .err .hexDecode
  | [], h => by simp at h
  | [_], _ => rfl
  | a :: b :: r, h => by
    unfold hexDecode
    by_cases ha : IsHex a
    · by_cases hb : IsHex b
      · obtain ⟨x, hx, _⟩ := hexVal_some a ha
        obtain ⟨y, hy, _⟩ := hexVal_some b hb
        obtain ⟨c, hm, hc⟩ := h
        have : hexDecode r = .err .hexDecode := by
          apply hexDecode_err
          rcases List.mem_cons.1 hm with rfl | hm
          · exact absurd ha hc
          rcases List.mem_cons.1 hm with rfl | hm
          · exact absurd hb hc
          exact ⟨c, hm, hc⟩
        rw [hx, hy]
        simp only
        rw [this]
        rfl
      · rw [hexVal_none b hb]
        cases hexVal a <;> rfl
    · rw [hexVal_none a ha]

/-- Decoding digits never panics. -/
theorem hexDecode_safe (s : Bytes) : hexDecode s ≠ .panic := by
  by_cases h : ∃ c ∈ s, ¬ IsHex c
  · rw [hexDecode_err s h]; simp
  · have h' : ∀ c ∈ s, IsHex c := fun c hm => Classical.byContradiction fun hc => h ⟨c, hm, hc⟩
    clear h
    intro hp
    have : ∀ s : Bytes, (∀ c ∈ s, IsHex c) → hexDecode s ≠ .panic := by
      intro s
      induction s using hexDecode.induct with
      | case1 => intro _; simp [hexDecode]
      | case2 => intro _; simp [hexDecode]
      | case3 a b r x y hy hx ih =>
        intro hc
        unfold hexDecode
        simp only [hx, hy]
        have := ih (fun c hm => hc c (by simp [hm]))
        cases hr : hexDecode r with
        | ok t => simp
        | err e => simp
        | panic => exact absurd hr this
      | case4 a b r h2 =>
        intro hc
        obtain ⟨x, hx, _⟩ := hexVal_some a (hc a (by simp))
        obtain ⟨y, hy, _⟩ := hexVal_some b (hc b (by simp))
        exact (h2 x y hx hy).elim
    exact this s h' hp

/-! ### Domain names -/

theorem splitDot_ne (s : Bytes) : splitDot s ≠ [] := by
  cases s with
  | nil => simp [splitDot]
  | cons c r =>
    unfold splitDot
    split
    · simp
    · split <;> simp

theorem joinDot_splitDot (s : Bytes) : joinDot (splitDot s) = s := by
  induction s with
  | nil => rfl
  | cons c r ih =>
    unfold splitDot
    by_cases hc : c = 46
    · rw [if_pos hc]
      obtain ⟨l, ls, hl⟩ := List.exists_cons_of_ne_nil (splitDot_ne r)
      rw [hl, joinDot, ← hl, ih, hc]
      · rfl
      · simp
    · rw [if_neg hc]
      obtain ⟨l, ls, hl⟩ := List.exists_cons_of_ne_nil (splitDot_ne r)
      rw [hl]
      rw [hl] at ih
      simp only
      cases ls with
      | nil => rw [joinDot] at ih ⊢; rw [ih]
      | cons l2 ls =>
        rw [joinDot] at ih ⊢
        · rw [List.cons_append, ih]
        · simp
        · simp

/-- Labels with a length octet each. -/
def labels : List Bytes → Bytes
  | [] => []
  | l :: ls => UInt8.ofNat l.length :: l ++ labels ls

theorem labels_length (s : Bytes) : (labels (splitDot s)).length = s.length + 1 := by
  induction s with
  | nil => rfl
  | cons c r ih =>
    unfold splitDot
    obtain ⟨l, ls, hl⟩ := List.exists_cons_of_ne_nil (splitDot_ne r)
    by_cases hc : c = 46
    · rw [if_pos hc]
      simp only [labels, List.length_append, List.length_cons, List.length_nil, ih]
      omega
    · rw [if_neg hc, hl]
      rw [hl] at ih
      simp only [labels, List.length_append, List.length_cons] at ih ⊢
      omega

theorem emits_spill (bs : Bytes) : W.Emits (W.spill bs) bs := by
  intro pre n h
  have := W.Emits.put bs pre n h
  unfold W.put Slice.putAt at this
  unfold W.spill Slice.copyAt
  have hl : (Slice.mk (pre ++ List.replicate n 0) []).len = pre.length + n := by
    show (pre ++ List.replicate n (0 : UInt8)).length = _
    simp
  have hc : (Slice.mk (pre ++ List.replicate n 0) []).cap = pre.length + n := by
    show (pre ++ List.replicate n (0 : UInt8)).length + ([] : Bytes).length = _
    simp
  rw [hc] at this
  rw [hl, hc, if_pos (by omega), List.take_of_length_le (l := bs) (by omega)]
  rw [if_pos (by omega)] at this
  exact this

theorem emits_labels : ∀ ls, W.Emits (encodeLabels ls) (labels ls)
  | [] => W.Emits.nop
  | l :: ls => by
    have := W.Emits.seq (W.Emits.u8 (UInt8.ofNat l.length)) (W.Emits.seq (emits_spill l) (emits_labels ls))
    simpa [labels, encodeLabels] using this

/-- What the encoder writes. -/
theorem encodeFQDN_eq (s : Bytes) : encodeFQDN s = .ok (labels (splitDot s)) := by
  unfold encodeFQDN
  rw [← labels_length]
  exact W.Emits.marshal (emits_labels _)

theorem decodeLabels_safe (b : Bytes) : ∀ fuel offset, b.length < fuel + offset → 0 < fuel →
    decodeLabels b fuel offset ≠ .panic := by
  intro fuel
  induction fuel with
  | zero => intro offset _ h; exact absurd h (Nat.lt_irrefl _)
  | succ fuel ih =>
    intro offset h _
    unfold decodeLabels
    by_cases h1 : b.length ≤ offset
    · rw [if_pos h1]; simp
    · rw [if_neg h1]
      unfold index
      rw [List.getElem?_eq_getElem (by omega)]
      simp only [Res.ok_bind]
      generalize b[offset] = l
      by_cases h2 : offset + l.toNat + 1 > b.length
      · rw [if_pos h2]; simp
      · rw [if_neg h2]
        unfold slice
        rw [if_pos (by omega), Res.ok_bind]
        have := ih (offset + (l.toNat + 1)) (by omega) (by omega)
        cases hr : decodeLabels b fuel (offset + (l.toNat + 1)) with
        | ok r => simp
        | err e => simp
        | panic => exact absurd hr this

theorem decodeFQDN_safe (b : Bytes) : decodeFQDN b ≠ .panic := by
  unfold decodeFQDN
  have := decodeLabels_safe b (b.length + 1) 0 (by omega) (by omega)
  cases hr : decodeLabels b (b.length + 1) 0 with
  | ok r => simp
  | err e => simp
  | panic => exact absurd hr this

theorem decodeLabels_labels : ∀ (ls : List Bytes) (pre : Bytes) (fuel : Nat), (∀ l ∈ ls, l.length < 256) →
    ls.length < fuel → decodeLabels (pre ++ labels ls) fuel pre.length = .ok ls := by
  intro ls
  induction ls with
  | nil =>
    intro pre fuel _ hf
    cases fuel with
    | zero => exact absurd hf (Nat.not_lt_zero _)
    | succ fuel =>
      unfold decodeLabels
      rw [if_pos (by simp [labels])]
  | cons l ls ih =>
    intro pre fuel hl hf
    cases fuel with
    | zero => exact absurd hf (Nat.not_lt_zero _)
    | succ fuel =>
      have hl1 : l.length < 256 := hl l (by simp)
      have e1 : (UInt8.ofNat l.length).toNat = l.length := by rw [UInt8.toNat_ofNat']; omega
      unfold decodeLabels
      rw [if_neg (by simp [labels])]
      unfold index
      simp only [labels]
      rw [show (pre ++ (UInt8.ofNat l.length :: l ++ labels ls))[pre.length]? = some (UInt8.ofNat l.length) by
        rw [List.getElem?_append_right (Nat.le_refl _)]; simp]
      simp only [Res.ok_bind, e1]
      rw [if_neg (by simp only [List.length_append, List.length_cons]; omega)]
      unfold slice
      rw [if_pos (by simp only [List.length_append, List.length_cons]; omega), Res.ok_bind]
      have := ih (pre ++ (UInt8.ofNat l.length :: l)) fuel (fun x hx => hl x (by simp [hx]))
        (by simp only [List.length_cons] at hf; omega)
      rw [show pre ++ (UInt8.ofNat l.length :: l) ++ labels ls = pre ++ (UInt8.ofNat l.length :: l ++ labels ls) by simp,
        show (pre ++ (UInt8.ofNat l.length :: l)).length = pre.length + (l.length + 1) by simp] at this
      rw [this, Res.ok_bind]
      have e2 : List.drop (pre.length + 1) (List.take (pre.length + l.length + 1)
          (pre ++ (UInt8.ofNat l.length :: l ++ labels ls))) = l := by
        rw [show pre ++ (UInt8.ofNat l.length :: l ++ labels ls) = (pre ++ [UInt8.ofNat l.length]) ++ (l ++ labels ls) by
          simp, show pre.length + l.length + 1 = (pre ++ [UInt8.ofNat l.length]).length + l.length by simp; omega,
          show pre.length + 1 = (pre ++ [UInt8.ofNat l.length]).length by simp, List.take_length_add_append,
          List.drop_left, List.take_left]
      rw [e2]
      rfl

theorem labels_count : ∀ ls, ls.length ≤ (labels ls).length
  | [] => Nat.le_refl _
  | l :: ls => by
    have := labels_count ls
    simp only [labels, List.length_append, List.length_cons]
    omega

/-- Reading back any labels. -/
theorem decodeFQDN_labels (ls : List Bytes) (h : ∀ l ∈ ls, l.length < 256) : decodeFQDN (labels ls) = .ok (joinDot ls) := by
  unfold decodeFQDN
  have := decodeLabels_labels ls [] ((labels ls).length + 1) h (by have := labels_count ls; omega)
  rw [List.nil_append, List.length_nil] at this
  rw [this]
  rfl

theorem splitDot_joinDot (ls : List Bytes) (h0 : ls ≠ []) (h : ∀ l ∈ ls, (46 : UInt8) ∉ l) :
    splitDot (joinDot ls) = ls := by
  have key : ∀ (l : Bytes), (46 : UInt8) ∉ l → splitDot l = [l] := by
    intro l
    induction l with
    | nil => intro _; rfl
    | cons c r ih =>
      intro hc
      rw [splitDot, if_neg (by intro e; exact hc (by simp [e])), ih (by intro e; exact hc (by simp [e]))]
  have key2 : ∀ (l r : Bytes), (46 : UInt8) ∉ l → splitDot (l ++ 46 :: r) = l :: splitDot r := by
    intro l r
    induction l with
    | nil => intro _; rw [List.nil_append, splitDot, if_pos rfl]
    | cons c l ih =>
      intro hc
      rw [List.cons_append, splitDot, if_neg (by intro e; exact hc (by simp [e])),
        ih (by intro e; exact hc (by simp [e]))]
  induction ls with
  | nil => exact absurd rfl h0
  | cons l ls ih =>
    cases ls with
    | nil => rw [joinDot]; exact key l (h l (by simp))
    | cons l2 ls =>
      rw [joinDot, key2 l _ (h l (by simp)), ih (by simp) (fun x hx => h x (by simp [hx]))]
      simp

end Text
end Pfcp
