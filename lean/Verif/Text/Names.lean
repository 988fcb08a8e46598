/- Exact results for domain names: what `DecodeFQDN` returns for any input, and which names survive the round trip (C33). -/
import Verif.Text.Props

namespace Pfcp
namespace Text

/-- The complete labels at the front of an octet string. -/
def labelsOf : Bytes → List Bytes
  | [] => []
  | c :: s => if s.length < c.toNat then [] else s.take c.toNat :: labelsOf (s.drop c.toNat)
termination_by b => b.length
decreasing_by simp only [List.length_drop, List.length_cons]; omega

theorem decodeLabels_eq : ∀ (fuel : Nat) (pre rest : Bytes), rest.length < fuel →
    decodeLabels (pre ++ rest) fuel pre.length = .ok (labelsOf rest) := by
  intro fuel
  induction fuel with
  | zero => intro pre rest h; exact absurd h (Nat.not_lt_zero _)
  | succ fuel ih =>
    intro pre rest h
    unfold decodeLabels
    cases rest with
    | nil => rw [if_pos (by simp), labelsOf]
    | cons c s =>
      rw [if_neg (by simp), labelsOf]
      unfold index
      rw [show (pre ++ c :: s)[pre.length]? = some c by rw [List.getElem?_append_right (Nat.le_refl _)]; simp]
      simp only [Res.ok_bind]
      simp only [List.length_cons] at h
      by_cases hc : s.length < c.toNat
      · rw [if_pos hc, if_pos (by simp only [List.length_append, List.length_cons]; omega)]
        rfl
      · rw [if_neg hc, if_neg (by simp only [List.length_append, List.length_cons]; omega)]
        unfold slice
        rw [if_pos (by simp only [List.length_append, List.length_cons]; omega), Res.ok_bind]
        have := ih (pre ++ c :: s.take c.toNat) (s.drop c.toNat) (by rw [List.length_drop]; omega)
        have e : pre ++ c :: s.take c.toNat ++ s.drop c.toNat = pre ++ c :: s := by
          rw [List.append_assoc, List.cons_append, List.take_append_drop]
        have e2 : (pre ++ c :: s.take c.toNat).length = pre.length + (c.toNat + 1) := by
          simp only [List.length_append, List.length_cons, List.length_take]; omega
        rw [e, e2] at this
        rw [this, Res.ok_bind]
        have e3 : List.drop (pre.length + 1) (List.take (pre.length + c.toNat + 1) (pre ++ c :: s)) = s.take c.toNat := by
          rw [show pre ++ c :: s = (pre ++ [c]) ++ s by simp,
            show pre.length + c.toNat + 1 = (pre ++ [c]).length + c.toNat by simp; omega,
            show pre.length + 1 = (pre ++ [c]).length by simp, List.take_length_add_append, List.drop_left]
        rw [e3]
        rfl

theorem decodeFQDN_eq (b : Bytes) : decodeFQDN b = .ok (joinDot (labelsOf b)) := by
  unfold decodeFQDN
  have := decodeLabels_eq (b.length + 1) [] b (by omega)
  rw [List.nil_append, List.length_nil] at this
  rw [this]
  rfl

/-- No complete label at the front: the octet string ends before the length it announces. -/
def Cut (t : Bytes) : Prop := t = [] ∨ ∃ c s, t = c :: s ∧ s.length < c.toNat

theorem labelsOf_wire (ls : List Bytes) (h : ∀ l ∈ ls, l.length < 256) (t : Bytes) (ht : Cut t) :
    labelsOf (wireName ls ++ t) = ls := by
  induction ls with
  | nil =>
    rcases ht with rfl | ⟨c, s, rfl, hc⟩
    · rw [wireName, List.flatMap_nil, List.append_nil, labelsOf]
    · rw [wireName, List.flatMap_nil, List.nil_append, labelsOf, if_pos hc]
  | cons l ls ih =>
    have h1 : l.length < 256 := h l List.mem_cons_self
    have e1 : (UInt8.ofNat l.length).toNat = l.length := by rw [UInt8.toNat_ofNat']; omega
    have e2 : wireName (l :: ls) ++ t = UInt8.ofNat l.length :: (l ++ (wireName ls ++ t)) := by
      simp [wireName]
    rw [e2, labelsOf, e1, if_neg (by rw [List.length_append]; omega), List.take_left, List.drop_left,
      ih (fun x hx => h x (List.mem_cons_of_mem _ hx))]

theorem labelsOf_split (b : Bytes) : ∃ t, b = wireName (labelsOf b) ++ t ∧ Cut t ∧ ∀ l ∈ labelsOf b, l.length < 256 := by
  induction hn : b.length using Nat.strongRecOn generalizing b with
  | ind n ih =>
    cases b with
    | nil => exact ⟨[], by rw [labelsOf]; rfl, .inl rfl, by rw [labelsOf]; intro l hl; cases hl⟩
    | cons c s =>
      rw [labelsOf]
      by_cases hc : s.length < c.toNat
      · rw [if_pos hc]
        exact ⟨c :: s, rfl, .inr ⟨c, s, rfl, hc⟩, by intro l hl; cases hl⟩
      · rw [if_neg hc]
        simp only [List.length_cons] at hn
        obtain ⟨t, e, ht, hl⟩ := ih (s.drop c.toNat).length (by rw [List.length_drop]; omega) (s.drop c.toNat) rfl
        have hlen : (s.take c.toNat).length = c.toNat := by rw [List.length_take]; omega
        refine ⟨t, ?_, ht, ?_⟩
        · have e1 : wireName (s.take c.toNat :: labelsOf (s.drop c.toNat)) ++ t =
              UInt8.ofNat (s.take c.toNat).length :: (s.take c.toNat ++ (wireName (labelsOf (s.drop c.toNat)) ++ t)) := by
            simp [wireName]
          rw [e1, ← e, List.take_append_drop, hlen, UInt8.ofNat_toNat]
        · intro l hl'
          rcases List.mem_cons.1 hl' with rfl | hl'
          · have := c.toNat_lt; omega
          · exact hl l hl'

/-- C33, exact for the decoder: every octet string is a sequence of complete labels followed by an incomplete rest in exactly one
way, and `DecodeFQDN` returns those labels separated by dots. -/
theorem C33_decode_exact (b : Bytes) :
    (∃ ls t, b = wireName ls ++ t ∧ (∀ l ∈ ls, l.length < 256) ∧ Cut t) ∧
    ∀ ls t, b = wireName ls ++ t → (∀ l ∈ ls, l.length < 256) → Cut t → decodeFQDN b = .ok (dotted ls) := by
  constructor
  · obtain ⟨t, e, ht, hl⟩ := labelsOf_split b
    exact ⟨_, t, e, hl, ht⟩
  · rintro ls t rfl hl ht
    rw [decodeFQDN_eq, labelsOf_wire ls hl t ht, dotted_eq]

/-- The result is shorter than the input: it never is the input itself (except the empty one). -/
theorem C33_decode_shorter (b v : Bytes) (h : decodeFQDN b = .ok v) (hv : v ≠ []) : v.length < b.length := by
  obtain ⟨t, e, _, _⟩ := labelsOf_split b
  rw [decodeFQDN_eq] at h
  cases h
  have hw : ∀ ls : List Bytes, ls ≠ [] → (joinDot ls).length + 1 = (wireName ls).length := by
    intro ls
    induction ls with
    | nil => intro h; exact absurd rfl h
    | cons l ls ih =>
      intro _
      cases ls with
      | nil => simp [joinDot, wireName]
      | cons l2 ls =>
        have := ih (by simp)
        have e2 : wireName (l :: l2 :: ls) = UInt8.ofNat l.length :: (l ++ wireName (l2 :: ls)) := by simp [wireName]
        have e3 : joinDot (l :: l2 :: ls) = l ++ 46 :: joinDot (l2 :: ls) := by rw [joinDot]; simp
        rw [e2, e3]
        simp only [List.length_append, List.length_cons]
        omega
  cases hls : labelsOf b with
  | nil => rw [hls] at hv; exact absurd rfl hv
  | cons l ls =>
    have := hw (l :: ls) (by simp)
    rw [hls] at e
    have hb := congrArg List.length e
    rw [List.length_append] at hb
    omega

theorem joinDot_cons (l : Bytes) (ls : List Bytes) (h : ls ≠ []) : joinDot (l :: ls) = l ++ 46 :: joinDot ls := by
  cases ls with
  | nil => exact absurd rfl h
  | cons l2 ls => rw [joinDot]; simp

/-- C33, exact for the round trip: a name survives if and only if each of its labels has at most 255 octets. -/
theorem C33_round_trip_iff (ls : List Bytes) (h0 : ls ≠ []) (hd : ∀ l ∈ ls, (46 : UInt8) ∉ l) :
    (∃ b, encodeFQDN (dotted ls) = .ok b ∧ decodeFQDN b = .ok (dotted ls)) ↔ ∀ l ∈ ls, l.length < 256 := by
  constructor
  · rintro ⟨b, he, hb⟩
    rw [C33_layout ls h0 hd] at he
    cases he
    rw [decodeFQDN_eq, dotted_eq, Res.ok.injEq] at hb
    clear h0
    induction ls with
    | nil => intro l hl; cases hl
    | cons l ls ih =>
      have e2 : wireName (l :: ls) = UInt8.ofNat l.length :: (l ++ wireName ls) := by simp [wireName]
      rw [e2, labelsOf] at hb
      have hr : (UInt8.ofNat l.length).toNat = l.length % 256 := UInt8.toNat_ofNat'
      have hr2 : l.length % 256 ≤ l.length := Nat.mod_le _ _
      rw [hr, if_neg (by rw [List.length_append]; omega)] at hb
      have hl0 : l.length < 256 := by
        apply Classical.byContradiction
        intro hlt
        have hlt' : l.length % 256 < l.length := by have := Nat.mod_lt l.length (show 0 < 256 by decide); omega
        have hget : (joinDot (l :: ls))[l.length % 256]? = some l[l.length % 256] := by
          cases ls with
          | nil => rw [joinDot]; exact List.getElem?_eq_getElem hlt'
          | cons l2 ls =>
            rw [joinDot_cons _ _ (by simp), List.getElem?_append_left hlt']
            exact List.getElem?_eq_getElem hlt'
        have htake : (l ++ wireName ls).take (l.length % 256) = l.take (l.length % 256) := List.take_append_of_le_length hr2
        have htl : (l.take (l.length % 256)).length = l.length % 256 := by rw [List.length_take]; omega
        rw [htake] at hb
        rw [← hb] at hget
        cases hrest : labelsOf ((l ++ wireName ls).drop (l.length % 256)) with
        | nil =>
          rw [hrest, joinDot, List.getElem?_eq_none (by omega)] at hget
          cases hget
        | cons x xs =>
          rw [hrest, joinDot_cons _ _ (by simp), List.getElem?_append_right (by omega), htl, Nat.sub_self] at hget
          have h46 : (46 : UInt8) = l[l.length % 256] := Option.some.inj hget
          exact hd l List.mem_cons_self (h46 ▸ List.getElem_mem hlt')
      have hmod : l.length % 256 = l.length := Nat.mod_eq_of_lt hl0
      rw [hmod, List.take_left, List.drop_left] at hb
      intro x hx
      rcases List.mem_cons.1 hx with rfl | hx
      · exact hl0
      · have hne : ls ≠ [] := by rintro rfl; cases hx
        rw [joinDot_cons _ _ hne] at hb
        cases hrest : labelsOf (wireName ls) with
        | nil =>
          rw [hrest, joinDot] at hb
          have := congrArg List.length hb
          simp only [List.length_append, List.length_cons] at this
          omega
        | cons y ys =>
          rw [hrest, joinDot_cons _ _ (by simp)] at hb
          have hb2 := List.append_cancel_left hb
          injection hb2 with _ hb2
          refine ih (fun l hl => hd l (List.mem_cons_of_mem _ hl)) ?_ x hx
          rw [hrest]
          exact hb2
  · intro h
    exact ⟨_, C33_layout ls h0 hd, C33_decode ls h⟩

example : Cut [5, 97] ∧ (wireName [[97], [98, 99]] ++ [5, 97]) = [1, 97, 2, 98, 99, 5, 97] :=
  ⟨.inr ⟨5, [97], rfl, by decide⟩, by decide⟩

end Text
end Pfcp
