/- For which strings the text helpers succeed, fail or crash. -/
import Verif.Text.Props

namespace Pfcp
namespace Text

/-- C31, exactly: the digits are coded if all of them are hexadecimal, into half as many octets, rounded up; otherwise an
error is returned. -/
theorem C31_ends (s : Bytes) :
    ((∃ b, strToSwappedBytes s [102] = .ok b) ↔ ∀ c ∈ s, IsHex c) ∧
    (strToSwappedBytes s [102] = .err .hexDecode ↔ ∃ c ∈ s, ¬ IsHex c) ∧
    strToSwappedBytes s [102] ≠ .panic ∧
    ∀ b, strToSwappedBytes s [102] = .ok b → b.length = (s.length + 1) / 2 := by
  by_cases h : ∀ c ∈ s, IsHex c
  · obtain ⟨b, h1, h2⟩ : ∃ b, strToSwappedBytes s [102] = .ok b ∧ b.length = (s.length + 1) / 2 := by
      by_cases hl : s.length % 2 = 0
      · obtain ⟨b, h1, h2, _⟩ := C31_even s [102] hl h
        exact ⟨b, h1, by omega⟩
      · obtain ⟨b, h1, h2, _⟩ := C31_odd s 102 (by omega) h (by decide)
        exact ⟨b, h1, by omega⟩
    refine ⟨⟨fun _ => h, fun _ => ⟨b, h1⟩⟩, ⟨fun he => (by rw [h1] at he; cases he), fun ⟨c, hc, hn⟩ => absurd (h c hc) hn⟩,
      (by rw [h1]; intro hc; cases hc), fun b' hb' => ?_⟩
    rw [h1] at hb'
    cases hb'
    exact h2
  · have hx : ∃ c ∈ s, ¬ IsHex c := by
      apply Classical.byContradiction
      intro hn
      exact h fun c hc => Classical.byContradiction fun hc' => hn ⟨c, hc, hc'⟩
    have h1 := C31_refuses s 102 hx
    rw [h1]
    exact ⟨⟨fun ⟨b, hb⟩ => (by cases hb), fun hh => absurd hh h⟩, ⟨fun _ => hx, fun _ => rfl⟩, (by intro hc; cases hc),
      fun b hb => by cases hb⟩

/-- C32, exactly how the encoder ends: an error iff some character is no hexadecimal digit; a crash iff all are, the
network code has not two digits, and one of the two codes has fewer than three; octets otherwise. -/
theorem C32_ends (mcc mnc : Bytes) :
    (encodePLMN mcc mnc = .err .hexDecode ↔ ∃ c, (c ∈ mcc ∨ c ∈ mnc) ∧ ¬ IsHex c) ∧
    (encodePLMN mcc mnc = .panic ↔
      (∀ c, c ∈ mcc ∨ c ∈ mnc → IsHex c) ∧ mnc.length ≠ 2 ∧ (mcc.length < 3 ∨ mnc.length < 3)) ∧
    ((∃ b, encodePLMN mcc mnc = .ok b) ↔
      (∀ c, c ∈ mcc ∨ c ∈ mnc → IsHex c) ∧ (mnc.length = 2 ∨ (3 ≤ mcc.length ∧ 3 ≤ mnc.length))) := by
  by_cases h1 : ∀ c ∈ mcc, IsHex c
  · by_cases h2 : ∀ c ∈ mnc, IsHex c
    · have hh : ∀ c, c ∈ mcc ∨ c ∈ mnc → IsHex c := fun c hc => hc.elim (h1 c) (h2 c)
      have hn : ¬ ∃ c, (c ∈ mcc ∨ c ∈ mnc) ∧ ¬ IsHex c := fun ⟨c, hc, hx⟩ => hx (hh c hc)
      obtain ⟨b1, e1⟩ := (C31_ends mcc).1.2 h1
      obtain ⟨b2, e2⟩ := (C31_ends mnc).1.2 h2
      have l1 := (C31_ends mcc).2.2.2 b1 e1
      have l2 := (C31_ends mnc).2.2.2 b2 e2
      simp only [hn, iff_false]
      unfold encodePLMN
      rw [show fillerF = [102] from rfl, e1, e2, Res.ok_bind, Res.ok_bind]
      by_cases h3 : mnc.length = 2
      · rw [if_pos h3]
        refine ⟨(by intro hc; cases hc), ⟨fun hc => (by cases hc), fun hc => absurd h3 hc.2.1⟩,
          ⟨fun _ => ⟨hh, Or.inl h3⟩, fun _ => ⟨_, rfl⟩⟩⟩
      · rw [if_neg h3]
        have case : ∀ (b : Bytes) (i : Nat), (i < b.length → ∃ x, index b i = .ok x) ∧ (¬ i < b.length → index b i = .panic) := by
          intro b i
          unfold index
          constructor
          · intro h; exact ⟨b[i], by rw [List.getElem?_eq_getElem h]⟩
          · intro h; rw [List.getElem?_eq_none (by omega)]
        by_cases h4 : 3 ≤ mcc.length
        · obtain ⟨x0, hx0⟩ := (case b1 0).1 (by omega)
          obtain ⟨x1, hx1⟩ := (case b1 1).1 (by omega)
          rw [hx0, hx1, Res.ok_bind, Res.ok_bind]
          by_cases h5 : 3 ≤ mnc.length
          · obtain ⟨y1, hy1⟩ := (case b2 1).1 (by omega)
            obtain ⟨y0, hy0⟩ := (case b2 0).1 (by omega)
            rw [hy1, hy0, Res.ok_bind, Res.ok_bind]
            exact ⟨(by intro hc; cases hc), ⟨fun hc => (by cases hc), fun hc => by omega⟩,
              ⟨fun _ => ⟨hh, Or.inr ⟨h4, h5⟩⟩, fun _ => ⟨_, rfl⟩⟩⟩
          · rw [(case b2 1).2 (by omega)]
            exact ⟨(by intro hc; cases hc), ⟨fun _ => ⟨hh, h3, by omega⟩, fun _ => rfl⟩,
              ⟨fun ⟨b, hb⟩ => (by cases hb), fun hc => by omega⟩⟩
        · have hp : (index b1 0 = .panic) ∨ (∃ x, index b1 0 = .ok x) := by
            by_cases h : 0 < b1.length
            · exact Or.inr ((case b1 0).1 h)
            · exact Or.inl ((case b1 0).2 h)
          have hq := (case b1 1).2 (by omega)
          rcases hp with hp | ⟨x, hp⟩
          · rw [hp]
            exact ⟨(by intro hc; cases hc), ⟨fun _ => ⟨hh, h3, by omega⟩, fun _ => rfl⟩,
              ⟨fun ⟨b, hb⟩ => (by cases hb), fun hc => by omega⟩⟩
          · rw [hp, hq, Res.ok_bind]
            exact ⟨(by intro hc; cases hc), ⟨fun _ => ⟨hh, h3, by omega⟩, fun _ => rfl⟩,
              ⟨fun ⟨b, hb⟩ => (by cases hb), fun hc => by omega⟩⟩
    · have hx : ∃ c ∈ mnc, ¬ IsHex c := by simpa using h2
      have hn : ¬ ∀ c, c ∈ mcc ∨ c ∈ mnc → IsHex c := fun hh => h2 fun c hc => hh c (Or.inr hc)
      obtain ⟨b1, e1⟩ := (C31_ends mcc).1.2 h1
      unfold encodePLMN
      rw [show fillerF = [102] from rfl, e1, C31_refuses mnc 102 hx, Res.ok_bind]
      obtain ⟨c, hc, hx⟩ := hx
      exact ⟨⟨fun _ => ⟨c, Or.inr hc, hx⟩, fun _ => rfl⟩, ⟨fun hc => (by cases hc), fun hc => absurd hc.1 hn⟩,
        ⟨fun ⟨b, hb⟩ => (by cases hb), fun hc => absurd hc.1 hn⟩⟩
  · have hx : ∃ c ∈ mcc, ¬ IsHex c := by simpa using h1
    have hn : ¬ ∀ c, c ∈ mcc ∨ c ∈ mnc → IsHex c := fun hh => h1 fun c hc => hh c (Or.inl hc)
    unfold encodePLMN
    rw [show fillerF = [102] from rfl, C31_refuses mcc 102 hx]
    obtain ⟨c, hc, hx⟩ := hx
    exact ⟨⟨fun _ => ⟨c, Or.inl hc, hx⟩, fun _ => rfl⟩, ⟨fun hc => (by cases hc), fun hc => absurd hc.1 hn⟩,
      ⟨fun ⟨b, hb⟩ => (by cases hb), fun hc => absurd hc.1 hn⟩⟩

/-- Each end occurs. -/
example : encodePLMN [52, 52, 48] [49, 120] = .err .hexDecode ∧ encodePLMN [52, 52, 48] [49] = .panic ∧
    (∃ b, encodePLMN [52, 52, 48] [49, 48] = .ok b) ∧ ∃ b, strToSwappedBytes [49, 50, 51] [102] = .ok b :=
  ⟨(C32_ends _ _).1.2 ⟨120, by decide, by decide⟩, by decide, ⟨_, show encodePLMN [52, 52, 48] [49, 48] = .ok [0x44, 0xf0, 0x01] by decide⟩,
    (C31_ends _).1.2 (by decide)⟩

end Text
end Pfcp
