/-
C35 exactly: which durations come back shorter than they were.
-/
import Verif.Ctor.Props

namespace Pfcp

/-- C35, exactly: of the durations of Go (64 bits), those are read back as shorter ones that are 32 or more of the largest
unit that divides them. -/
theorem C35_shorter_iff (g : IEType → Bool) (mem : IE → Bytes) (f : SecondsConv) (c : IECtor) (d : Int) (rest : Bytes)
    (hc : c.def.2 = .timer) (hg : g c.def.1 = false) (hd : d ≤ 2 ^ 63 - 1) :
    ∃ i b e, c.build f (.duration d) = some i ∧ i.marshal g = .ok b ∧ parse g (b ++ rest) = .ok i ∧
      c.acc.call g mem i = .ok (.duration e) ∧
      (e < d ↔ ∃ u ∈ timerUnits, d % u = 0 ∧ 32 * u ≤ d ∧ ∀ v ∈ timerUnits, d % v = 0 → v ≤ u) := by
  obtain ⟨i, b, h1, h2, h3, h4⟩ := C35_exact g mem f c d rest hc hg
  refine ⟨i, b, _, h1, h2, h3, h4, ?_⟩
  have hr : timerUnits.reverse = [36000000000000, 3600000000000, 600000000000, 60000000000, 2000000000] := by decide
  have hm : ∀ (p : Int → Prop), (∃ u ∈ timerUnits, p u) ↔
      (p 2000000000 ∨ p 60000000000 ∨ p 600000000000 ∨ p 3600000000000 ∨ p 36000000000000) := by
    intro p; simp [timerUnits]
  have ha : ∀ (p : Int → Prop), (∀ u ∈ timerUnits, p u) ↔
      (p 2000000000 ∧ p 60000000000 ∧ p 600000000000 ∧ p 3600000000000 ∧ p 36000000000000) := by
    intro p; simp [timerUnits]
  have key : ∀ u : Int, 0 < u → d % u = 0 → ((d.tdiv u % 32) * u < d ↔ 32 * u ≤ d) := by
    intro u hu h0
    have hdv : d = u * (d.tdiv u) := by
      have : u ∣ d := Int.dvd_of_emod_eq_zero h0
      exact (Int.mul_tdiv_cancel' this).symm
    generalize d.tdiv u = q at *
    subst hdv
    have hq0 : 0 ≤ q % 32 := Int.emod_nonneg _ (by decide)
    have hq32 : q % 32 < 32 := Int.emod_lt_of_pos _ (by decide)
    rw [Int.mul_comm u q]
    rw [Int.mul_lt_mul_right hu, Int.mul_le_mul_right hu]
    omega
  rw [hr, hm]
  simp only [ha]
  by_cases a5 : d % 36000000000000 = 0
  · simp only [List.find?_cons, a5, decide_true]
    rw [key _ (by decide) a5]
    simp
  by_cases a4 : d % 3600000000000 = 0
  · simp only [List.find?_cons, a5, a4, decide_true, decide_false]
    rw [key _ (by decide) a4]
    simp
  by_cases a3 : d % 600000000000 = 0
  · simp only [List.find?_cons, a5, a4, a3, decide_true, decide_false]
    rw [key _ (by decide) a3]
    simp
  by_cases a2 : d % 60000000000 = 0
  · simp only [List.find?_cons, a5, a4, a3, a2, decide_true, decide_false]
    rw [key _ (by decide) a2]
    simp
  by_cases a1 : d % 2000000000 = 0
  · simp only [List.find?_cons, a5, a4, a3, a2, a1, decide_true, decide_false]
    rw [key _ (by decide) a1]
    simp
  · simp only [List.find?_cons, List.find?_nil, a5, a4, a3, a2, a1, decide_false]
    simp
    omega

/-- Both kinds of durations exist. -/
example : (∃ u ∈ timerUnits, (66000000000 : Int) % u = 0 ∧ 32 * u ≤ 66000000000 ∧
      ∀ v ∈ timerUnits, (66000000000 : Int) % v = 0 → v ≤ u) ∧
    ¬ ∃ u ∈ timerUnits, (62000000000 : Int) % u = 0 ∧ 32 * u ≤ 62000000000 ∧
      ∀ v ∈ timerUnits, (62000000000 : Int) % v = 0 → v ≤ u := by decide

end Pfcp
