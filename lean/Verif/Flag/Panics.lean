/-
C39 exactly for the flag functions: the inputs on which they panic.
-/
import Verif.Flag.Props2
import Verif.Acc.Panics
import Verif.Acc.Kinds

namespace Pfcp
open Fields

/-- The functions that decode an Outer Header Creation. -/
def outerFlags : List Flag :=
  [.HasCTag, .HasIPv4, .HasIPv6, .HasPortNumber, .HasSTag, .HasTEID, .IsLLSSMCTEID, .IsN19, .IsN6]

theorem has_outer {v : Val} (h : v.has Acc.OuterHeaderCreation.returns = true) : ∃ x, v = .outerHeaderCreation x := by
  cases v <;> first | exact ⟨_, rfl⟩ | exact absurd (show false = true from h) (by decide)

theorem has_u8 {v : Val} (h : v.has Acc.IPVersion.returns = true) : ∃ x, v = .u8 x := by
  cases v <;> first | exact ⟨_, rfl⟩ | exact absurd (show false = true from h) (by decide)

theorem has_fseid {v : Val} (h : v.has Acc.FSEID.returns = true) : ∃ x, v = .fseid x := by
  cases v <;> first | exact ⟨_, rfl⟩ | exact absurd (show false = true from h) (by decide)

theorem has_fteid {v : Val} (h : v.has Acc.FTEID.returns = true) : ∃ x, v = .fteid x := by
  cases v <;> first | exact ⟨_, rfl⟩ | exact absurd (show false = true from h) (by decide)

theorem outer_panic (g : IEType → Bool) (mem : IE → Bytes) (i : IE) (ht : i.typ = T.OuterHeaderCreation) (m : Nat)
    (hm : m ≤ 2) (h : Bool) (t : Test) :
    FlagSrc.run g mem i (.outer m h t) = .panic ↔ Acc.OuterHeaderCreation.call g mem i = .panic := by
  dsimp only [FlagSrc.run]
  by_cases hl : i.payload.length < m
  · rw [if_pos hl]
    refine iff_of_false (fun h => by cases h) (fun hc => ?_)
    obtain ⟨x, b, rest, hp, _, _⟩ := (C39_OuterHeaderCreation_exact g mem i ht).1 hc
    rw [hp] at hl
    simp at hl
    omega
  · rw [if_neg hl]
    cases hc : Acc.OuterHeaderCreation.call g mem i with
    | panic => exact iff_of_true rfl rfl
    | err e => exact iff_of_false (fun h => by cases h) (fun h => by cases h)
    | ok v =>
      obtain ⟨x, rfl⟩ := has_outer (C38_typed g mem _ i v hc)
      exact iff_of_false (fun h => by cases h) (fun h => by cases h)

/-- C39, exact for the flag functions: `HasMAC` panics on an empty TSN Bridge ID; the functions about an Outer Header Creation
panic where its decoder does; no other flag function panics. -/
theorem C39_flags_exact (g : IEType → Bool) (mem : IE → Bytes) (f : Flag) (i : IE) :
    f.call g mem i = .panic ↔
      (f = .HasMAC ∧ i.typ = T.TSNBridgeID ∧ i.payload = []) ∨
      (f ∈ outerFlags ∧ i.typ = T.OuterHeaderCreation ∧
        ∃ x b rest, i.payload = x :: b :: rest ∧ (bit b 6 = true ∨ bit b 7 = true) ∧
          (if bit x 0 || bit x 1 then 4 else 0) + (if bit x 0 || bit x 2 || bit x 4 then 4 else 0) +
          (if bit x 1 || bit x 3 || bit x 5 then 16 else 0) + (if bit x 2 || bit x 3 then 2 else 0) + 3 ≤ rest.length) := by
  by_cases hf : f ∈ panickyFlags
  · by_cases hm : f = .HasMAC
    · subst hm
      have hno : Flag.HasMAC ∉ outerFlags := by decide
      by_cases ht : i.typ = T.TSNBridgeID
      · have hr : Flag.HasMAC.rule i.typ = some (.payload 0 0 (.bit 0)) := by rw [ht]; rfl
        unfold Flag.call
        rw [if_neg (by exact Nat.not_lt_zero _), hr]
        unfold FlagSrc.run
        dsimp only
        rw [if_neg (Nat.not_lt_zero _)]
        cases hp : i.payload with
        | nil => exact iff_of_true rfl (.inl ⟨rfl, ht, rfl⟩)
        | cons a r =>
          refine iff_of_false (fun h => nomatch h) ?_
          rintro (⟨_, _, h⟩ | ⟨h, _⟩)
          · cases h
          · exact hno h
      · have hh : Flag.HasMAC.handles i.typ = false := by
          unfold Flag.handles Flag.rule Flag.table
          simp [ruleFor, ht]
        rw [C37_flags g mem _ i hh]
        refine iff_of_false (fun h => nomatch h) ?_
        rintro (⟨_, h, _⟩ | ⟨h, _⟩)
        · exact ht h
        · exact hno h
    · have ho : f ∈ outerFlags := by
        have := forall_flag (p := fun f => !panickyFlags.contains f || decide (f = .HasMAC) || outerFlags.contains f) (by decide +kernel) f
        simp only [Bool.or_eq_true, Bool.not_eq_true', decide_eq_true_eq, List.contains_iff_mem] at this
        have hc : panickyFlags.contains f = true := by simpa using hf
        rw [hc] at this
        exact (this.resolve_left (by simp [hm]))
      by_cases ht : i.typ = T.OuterHeaderCreation
      · have hpre : f.table.pre = 0 := by
          have := List.all_eq_true.1 (by decide +kernel : outerFlags.all (fun f => decide (f.table.pre = 0)) = true) f ho
          exact of_decide_eq_true this
        have hrule : ∃ m h t, m ≤ 2 ∧ f.rule T.OuterHeaderCreation = some (.outer m h t) := by
          have := List.all_eq_true.1 (by decide +kernel : outerFlags.all (fun f => match f.rule T.OuterHeaderCreation with
            | some (.outer m _ _) => decide (m ≤ 2)
            | _ => false) = true) f ho
          split at this
          · rename_i m h t hr
            exact ⟨m, h, t, of_decide_eq_true this, hr⟩
          · cases this
        obtain ⟨m, h, t, hm2, hr⟩ := hrule
        unfold Flag.call
        rw [if_neg (by omega), ht, hr]
        dsimp only
        rw [outer_panic g mem i ht m hm2, C39_OuterHeaderCreation_exact g mem i ht]
        constructor
        · intro h; exact .inr ⟨ho, rfl, h⟩
        · rintro (⟨h, _⟩ | ⟨_, _, h⟩)
          · exact absurd h hm
          · exact h
      · refine iff_of_false (fun h => ?_) ?_
        · unfold Flag.call at h
          split at h
          · cases h
          · split at h
            · cases h
            · rename_i s hr
              have key := List.all_eq_true.1 (by decide +kernel : outerFlags.all (fun f => f.table.rules.all (fun r => match r with
                | (some [t], .outer _ _ _) => decide (t = T.OuterHeaderCreation)
                | (_, .payload m k _) => decide (k < m)
                | (_, .fseid _) => true
                | (_, .fteid _) => true
                | (_, .u8 a _) => decide (a = .IPVersion)
                | _ => false)) = true) f ho
              unfold Flag.rule at hr
              obtain ⟨r, hr, e⟩ := Option.map_eq_some_iff.1 hr
              have hk := List.all_eq_true.1 key r (List.mem_of_find?_eq_some hr)
              have hrf := List.find?_some hr
              obtain ⟨ts, s'⟩ := r
              subst e
              dsimp only at h hk hrf
              cases s' with
              | payload m k t =>
                dsimp only [FlagSrc.run] at h
                have hk : k < m := by
                  split at hk <;> first | exact of_decide_eq_true hk | cases hk | skip
                  all_goals simp_all
                by_cases hl : i.payload.length < m
                · rw [if_pos hl] at h; cases h
                · rw [if_neg hl] at h
                  simp only [Slice.idx, List.getElem?_eq_getElem (show k < i.payload.length by omega)] at h
                  cases h
              | u8 a t =>
                have hk : a = .IPVersion := by
                  split at hk <;> simp_all
                subst hk
                dsimp only [FlagSrc.run] at h
                have hs := (C39_safe g mem .IPVersion (by decide) i).1
                cases hc : Acc.IPVersion.call g mem i with
                | panic => exact hs hc
                | err e => rw [hc] at h; cases h
                | ok v =>
                  obtain ⟨x, rfl⟩ := has_u8 (C38_typed g mem _ i v hc)
                  rw [hc] at h
                  cases h
              | bytes a m k t => split at hk <;> simp_all
              | outer m hi t =>
                split at hk <;> simp_all [ruleFor]
              | fseid t =>
                dsimp only [FlagSrc.run] at h
                have hs := (C39_safe g mem .FSEID (by decide) i).1
                cases hc : Acc.FSEID.call g mem i with
                | panic => exact hs hc
                | err e => rw [hc] at h; cases h
                | ok v =>
                  obtain ⟨x, rfl⟩ := has_fseid (C38_typed g mem _ i v hc)
                  rw [hc] at h
                  cases h
              | fteid t =>
                dsimp only [FlagSrc.run] at h
                have hs := (C39_safe g mem .FTEID (by decide) i).1
                cases hc : Acc.FTEID.call g mem i with
                | panic => exact hs hc
                | err e => rw [hc] at h; cases h
                | ok v =>
                  obtain ⟨x, rfl⟩ := has_fteid (C38_typed g mem _ i v hc)
                  rw [hc] at h
                  cases h
        · rintro (⟨h, _⟩ | ⟨_, h, _⟩)
          · exact hm h
          · exact ht h
  · refine iff_of_false (fun h => ?_) ?_
    · obtain ⟨v, hv⟩ := (C39_flags g mem f hf i).1
      rw [hv] at h
      cases h
    · rintro (⟨rfl, _⟩ | ⟨h, _⟩)
      · exact hf (by decide)
      · exact hf ((by decide : ∀ f ∈ outerFlags, f ∈ panickyFlags) f h)

-- an Outer Header Creation on which `HasCTag` panics, and one on which it answers
example : Flag.HasCTag.call (defaultGroupedTypes.contains ·) (fun _ => []) (IE.new T.OuterHeaderCreation [0, 64, 0, 0, 0]) = .panic :=
  (C39_flags_exact _ _ _ _).2 (.inr ⟨by decide, rfl, 0, 64, [0, 0, 0], rfl, .inl (by decide), by decide⟩)
example : Flag.HasCTag.call (defaultGroupedTypes.contains ·) (fun _ => []) (IE.new T.OuterHeaderCreation [0, 64, 0, 0]) ≠ .panic := by
  decide +kernel

end Pfcp
