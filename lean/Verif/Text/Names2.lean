/- Exact results for domain names from the octets: which octet strings come back when the decoded name is encoded (C33). -/
import Verif.Text.Names

namespace Pfcp
namespace Text

theorem splitDot_noDot (s : Bytes) : ∀ l ∈ splitDot s, (46 : UInt8) ∉ l := by
  induction s with
  | nil => intro l hl; simp [splitDot] at hl; simp [hl]
  | cons c r ih =>
    intro l hl
    unfold splitDot at hl
    split at hl
    · rcases List.mem_cons.1 hl with rfl | hl
      · simp
      · exact ih l hl
    · rename_i hc
      split at hl
      · rename_i l0 ls e
        rcases List.mem_cons.1 hl with rfl | hl
        · have := ih l0 (by rw [e]; exact List.mem_cons_self)
          simp only [List.mem_cons, not_or]
          exact ⟨fun h => hc h.symm, this⟩
        · exact ih l (by rw [e]; exact List.mem_cons_of_mem _ hl)
      · rename_i e
        exact absurd e (splitDot_ne r)

/-- C33, from the octets: they come back when the decoded name is encoded again if and only if they are the coding of at
least one label, none of which contains a dot, and nothing else. -/
theorem C33_octets_iff (b : Bytes) : (∃ v, decodeFQDN b = .ok v ∧ encodeFQDN v = .ok b) ↔
    ∃ ls, ls ≠ [] ∧ (∀ l ∈ ls, l.length < 256 ∧ (46 : UInt8) ∉ l) ∧ b = wireName ls := by
  constructor
  · rintro ⟨v, hd, he⟩
    have hv : dotted (splitDot v) = v := by rw [dotted_eq, joinDot_splitDot]
    have hl := (C33_round_trip_iff (splitDot v) (splitDot_ne v) (splitDot_noDot v)).1 ⟨b, by rw [hv]; exact he, by rw [hv]; exact hd⟩
    refine ⟨splitDot v, splitDot_ne v, fun l h => ⟨hl l h, splitDot_noDot v l h⟩, ?_⟩
    have h2 := C33_layout (splitDot v) (splitDot_ne v) (splitDot_noDot v)
    rw [hv, he] at h2
    injection h2
  · rintro ⟨ls, h0, hl, rfl⟩
    exact ⟨dotted ls, C33_decode ls fun l h => (hl l h).1, C33_layout ls h0 fun l h => (hl l h).2⟩

/-- C33. Two names of short labels never have the same coding. -/
theorem C33_distinct (s t b : Bytes) (hs : ∀ l ∈ splitDot s, l.length < 256) (ht : ∀ l ∈ splitDot t, l.length < 256)
    (h1 : encodeFQDN s = .ok b) (h2 : encodeFQDN t = .ok b) : s = t := by
  obtain ⟨b1, e1, d1⟩ := C33_round_trip s hs
  obtain ⟨b2, e2, d2⟩ := C33_round_trip t ht
  rw [h1] at e1
  rw [h2] at e2
  cases e1
  cases e2
  rw [d1] at d2
  injection d2

example : ∃ v, decodeFQDN [1, 97, 0, 2, 98, 99] = .ok v ∧ encodeFQDN v = .ok [1, 97, 0, 2, 98, 99] :=
  (C33_octets_iff _).2 ⟨[[97], [], [98, 99]], by decide, by decide, by decide⟩
example : decodeFQDN [3, 97, 46, 98] = .ok [97, 46, 98] ∧ encodeFQDN [97, 46, 98] = .ok [1, 97, 1, 98] := by decide
example : decodeFQDN [] = .ok [] ∧ encodeFQDN [] = .ok [0] := by decide

end Text
end Pfcp
