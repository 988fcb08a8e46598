/-
Property C45 for single elements: `UnmarshalBinary` on an element that was used before.
-/
import Verif.IE.Lemmas

namespace Pfcp

/-- `IE.UnmarshalBinary`, /repo/ie/ie.go:514-556, on any `IE`: `EnterpriseID` is only set for vendor-specific types (line 533),
`Payload` not if the input ends with the header (538-540), `ChildIEs` only for grouped types (547-553). What an error leaves behind
is not described. -/
def unmarshalInto (g : IEType → Bool) (old : IE) (b : Bytes) : Res IE := do
  let l := b.length
  if l < 4 then .err .unexpectedEOF else do
  let t := dec16 (← slice b 0 2)
  let len := dec16 (← slice b 2 4)
  let (eid, offset, endd) ← (if isVendor t then
      if l < 6 then .err .unexpectedEOF
      else if len.toNat < 2 then .err .invalidLength
      else do
        let eid := dec16 (← slice b 4 6)
        pure (eid, 4 + 2, len.toNat - 2)
    else pure (old.eid, 4, len.toNat) : Res (UInt16 × Nat × Nat))
  if l ≤ offset then pure { old with typ := t, length := len, eid := eid }
  else if l < offset + endd then .err .unexpectedEOF
  else do
    let payload ← slice b offset (offset + endd)
    if g t then do
      let cs ← parseMulti g payload
      pure ⟨t, len, eid, payload, cs⟩
    else pure { old with typ := t, length := len, eid := eid, payload := payload }

/-- What decoding `b` into `old` leaves, when `f` is what a fresh element would be: the old enterprise number unless the type is
vendor-specific, the old payload if `b` is a bare header, the old children unless a grouped payload was decoded. -/
def IE.onto (g : IEType → Bool) (b : Bytes) (old f : IE) : IE where
  typ := f.typ
  length := f.length
  eid := if isVendor f.typ then f.eid else old.eid
  payload := if b.length ≤ hdrLen f.typ then old.payload else f.payload
  children := if hdrLen f.typ < b.length ∧ g f.typ = true then f.children else old.children

variable (g : IEType → Bool)

/-- C45 (c), exact for elements: same errors as a fresh decode, and on success the result is `IE.onto`. -/
theorem C45_element_exact (old : IE) (b : Bytes) :
    unmarshalInto g old b = parse g b >>= fun f => .ok (old.onto g b f) := by
  rw [parse_unfold]
  unfold unmarshalInto parseBody
  by_cases h4 : b.length < 4
  · simp [h4]
  · simp only [h4, if_false]
    rw [slice_ok b 0 2 (by omega) (by omega), slice_ok b 2 4 (by omega) (by omega)]
    simp only [Res.ok_bind]
    generalize dec16 (List.drop 0 (List.take 2 b)) = t
    generalize dec16 (List.drop 2 (List.take 4 b)) = len
    by_cases hv : isVendor t = true
    · simp only [hv, if_true]
      by_cases h6 : b.length < 6
      · simp [h6]
      · simp only [h6, if_false]
        by_cases h2 : len.toNat < 2
        · simp [h2]
        · simp only [h2, if_false]
          rw [slice_ok b 4 6 (by omega) (by omega)]
          simp only [Res.ok_bind, Res.pure_eq]
          by_cases h7 : b.length ≤ 4 + 2
          · have : ¬ 6 < b.length := by omega
            simp [h7, IE.onto, hv, hdrLen, this]
          · by_cases h8 : b.length < 4 + 2 + (len.toNat - 2)
            · simp [h7, h8]
            · simp only [h7, h8, if_false]
              rw [slice_ok b _ _ (by omega) (by omega)]
              simp only [Res.ok_bind]
              by_cases hg : g t = true
              · simp only [hg, if_true]
                cases parseMulti g _ with
                | ok cs => simp [IE.onto, hv, hdrLen, hg, show ¬ b.length ≤ 6 by omega, show 6 < b.length by omega]
                | err e => rfl
                | panic => rfl
              · simp [IE.onto, hv, hdrLen, hg, show ¬ b.length ≤ 6 by omega]
    · simp only [hv, Bool.false_eq_true, if_false, Res.pure_eq, Res.ok_bind]
      by_cases h7 : b.length ≤ 4
      · have : ¬ 4 < b.length := by omega
        simp [h7, IE.onto, hv, hdrLen, this]
      · by_cases h8 : b.length < 4 + len.toNat
        · simp [h7, h8]
        · simp only [h7, h8, if_false]
          rw [slice_ok b _ _ (by omega) (by omega)]
          simp only [Res.ok_bind]
          by_cases hg : g t = true
          · simp only [hg, if_true]
            cases parseMulti g _ with
            | ok cs => simp [IE.onto, hv, hdrLen, hg, h7, show 4 < b.length by omega]
            | err e => rfl
            | panic => rfl
          · simp [IE.onto, hv, hdrLen, hg, h7]

/-- C45 (d). A zero element is what `Parse` starts from. -/
theorem C45_element_fresh (b : Bytes) : unmarshalInto g ⟨0, 0, 0, [], []⟩ b = parse g b := by
  rw [parse_unfold]
  rfl

/-- C45 (e), exact for elements: decoding into `old` gives what a fresh decode gives if and only if `old` has no enterprise number
(or the new type is vendor-specific), no payload (or there is input behind the header), and no children (or a grouped payload was
decoded). -/
theorem C45_element_iff (old : IE) (b : Bytes) (f : IE) (hf : parse g b = .ok f) :
    unmarshalInto g old b = .ok f ↔
      (isVendor f.typ = true ∨ old.eid = 0) ∧ (hdrLen f.typ < b.length ∨ old.payload = []) ∧
      (hdrLen f.typ < b.length ∧ g f.typ = true ∨ old.children = []) := by
  have h0 := C45_element_exact g ⟨0, 0, 0, [], []⟩ b
  rw [C45_element_fresh, hf, Res.ok_bind, Res.ok.injEq] at h0
  rw [C45_element_exact, hf, Res.ok_bind, Res.ok.injEq]
  obtain ⟨t, l, e, p, cs⟩ := f
  simp only [IE.onto, IE.mk.injEq, true_and] at h0 ⊢
  obtain ⟨h1, h2, h3⟩ := h0
  refine and_congr ?_ (and_congr ?_ ?_)
  · by_cases hv : isVendor t = true
    · simp [hv]
    · rw [if_neg hv] at h1 ⊢
      rw [← h1]
      simp [hv]
  · by_cases hl : b.length ≤ hdrLen t
    · rw [if_pos hl] at h2 ⊢
      rw [← h2]
      simp [Nat.not_lt.2 hl]
    · rw [if_neg hl]
      simp [Nat.not_le.1 hl]
  · by_cases hl : hdrLen t < b.length ∧ g t = true
    · rw [if_pos hl]
      simp [hl]
    · rw [if_neg hl] at h3 ⊢
      rw [← h3]
      simp only [hl, false_or]

/-- C45 is false for elements as well: the bare header of a Node ID decoded into an element that held a Cause gives a Node ID with
the value of the Cause; encoding it gives five octets with the length field 0. -/
theorem C45_element_violated :
    let b : Bytes := [0, 60, 0, 0]
    ∃ old i f, parse (fun _ => false) [0, 19, 0, 1, 1] = .ok old ∧ unmarshalInto (fun _ => false) old b = .ok i ∧
      parse (fun _ => false) b = .ok f ∧ f.payload = [] ∧ i.payload = [1] ∧
      i.marshal (fun _ => false) = .ok [0, 60, 0, 0, 1] := by
  refine ⟨_, _, _, rfl, rfl, rfl, rfl, rfl, ?_⟩
  decide

/-- A decode with a value behind the header into a used plain element is clean. -/
example : unmarshalInto (fun _ => false) ⟨19, 1, 0, [1], []⟩ [0, 60, 0, 2, 0, 7] = .ok ⟨60, 2, 0, [0, 7], []⟩ := by decide

end Pfcp
