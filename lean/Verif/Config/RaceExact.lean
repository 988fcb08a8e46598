/-
C12 exactly: which programs have a data race on the function variable of the configuration.
-/
import Verif.Config.ConcurrentProps

namespace Pfcp
namespace Concurrent

/-- Nobody holds or waits for the lock (not part of the Go code). -/
def Quiet (sh : Shared) : Prop := sh.announced = false ∧ sh.readers = 0

/-- The goroutine stems from program `p`: what it does and will do are calls of `p` (not part of the Go code). -/
def From (p : List Op) (t : Thread) : Prop :=
  (∀ op ∈ t.todo, op ∈ p) ∧
  match t.pc with
  | .loadFun u => Op.isGrouped u ∈ p
  | .setLock f | .setWait f | .storeFun f => Op.set f ∈ p
  | _ => True

theorem one {progs : List (List Op)} {xs ys : List Thread} {t t' : Thread} {s s' : Shared}
    (h : Reach progs ⟨xs ++ t :: ys, s⟩) (hl : Local t s t' s') : Reach progs ⟨xs ++ t' :: ys, s'⟩ :=
  .step h (.mk xs ys t t' s s' hl)

/-- The loop of `AddGroupedIEType` runs to its end. -/
theorem run_adding {progs : List (List Op)} {xs ys : List Thread} {ops : List Op} : (ts d : List IEType) → (s : Shared) →
    Reach progs ⟨xs ++ ⟨.adding d ts, ops⟩ :: ys, s⟩ →
    ∃ s', s'.readers = s.readers ∧ Reach progs ⟨xs ++ ⟨.adding (d ++ ts) [], ops⟩ :: ys, s'⟩
  | [], d, s, h => ⟨s, rfl, by simpa using h⟩
  | t :: ts, d, s, h => by
    obtain ⟨s', h1, h2⟩ := run_adding ts (d ++ [t]) _ (one h (.addWrite d t ts ops s))
    exact ⟨s', h1, by simpa using h2⟩

/-- A goroutine that is left alone finishes a call. -/
theorem run_op {progs : List (List Op)} {xs ys : List Thread} {ops : List Op} (op : Op) (s : Shared) (hq : Quiet s)
    (h : Reach progs ⟨xs ++ ⟨.idle, op :: ops⟩ :: ys, s⟩) :
    ∃ s', Quiet s' ∧ Reach progs ⟨xs ++ ⟨.idle, ops⟩ :: ys, s'⟩ := by
  have h0 := one h (.begin op ops s)
  obtain ⟨ha, hr⟩ := hq
  cases op with
  | isGrouped t =>
    cases hf : s.fn with
    | some f => exact ⟨s, ⟨ha, hr⟩, one h0 (.loadUser t ops s f hf)⟩
    | none =>
      have h1 := one h0 (.loadInitial t ops s hf)
      have h2 := one h1 (.rlock t ops s ha)
      have h3 := one h2 (.readMap t ops _)
      have h4 := one h3 (.runlock ops _)
      refine ⟨_, ?_, h4⟩
      exact ⟨ha, hr⟩
  | add ts =>
    have h1 := one h0 (.addAnnounce ts ops s ha)
    have h2 := one h1 (.addEnter ts ops _ hr)
    obtain ⟨s', hr', h3⟩ := run_adding ts [] _ h2
    have h4 := one h3 (.addUnlock _ ops s')
    refine ⟨_, ?_, h4⟩
    exact ⟨rfl, hr'.trans hr⟩
  | set f =>
    have h1 := one h0 (.setAnnounce f ops s ha)
    have h2 := one h1 (.setEnter f ops _ hr)
    have h3 := one h2 (.setStore f ops _)
    have h4 := one h3 (.setUnlock ops _)
    refine ⟨_, ?_, h4⟩
    exact ⟨rfl, hr⟩

/-- A goroutine that is left alone finishes any number of calls. -/
theorem run_ops {progs : List (List Op)} {xs ys : List Thread} {rest : List Op} : (ops : List Op) → (s : Shared) → Quiet s →
    Reach progs ⟨xs ++ ⟨.idle, ops ++ rest⟩ :: ys, s⟩ →
    ∃ s', Quiet s' ∧ Reach progs ⟨xs ++ ⟨.idle, rest⟩ :: ys, s'⟩
  | [], s, hq, h => ⟨s, hq, h⟩
  | op :: ops, s, hq, h => by
    obtain ⟨s1, hq1, h1⟩ := run_op op s hq h
    exact run_ops ops s1 hq1 h1

/-- Up to the point where it reads the function variable. -/
theorem run_to_load {progs : List (List Op)} {xs ys : List Thread} {p : List Op} {u : IEType} (hu : Op.isGrouped u ∈ p)
    (s : Shared) (hq : Quiet s) (h : Reach progs ⟨xs ++ ⟨.idle, p⟩ :: ys, s⟩) :
    ∃ s' rest, Quiet s' ∧ Reach progs ⟨xs ++ ⟨.loadFun u, rest⟩ :: ys, s'⟩ := by
  obtain ⟨ops, rest, rfl⟩ := List.append_of_mem hu
  obtain ⟨s1, hq1, h1⟩ := run_ops ops s hq h
  exact ⟨s1, rest, hq1, one h1 (.begin _ _ _)⟩

/-- Up to the point where it writes the function variable. -/
theorem run_to_store {progs : List (List Op)} {xs ys : List Thread} {p : List Op} {f : IEType → Bool} (hu : Op.set f ∈ p)
    (s : Shared) (hq : Quiet s) (h : Reach progs ⟨xs ++ ⟨.idle, p⟩ :: ys, s⟩) :
    ∃ s' rest, Reach progs ⟨xs ++ ⟨.storeFun f, rest⟩ :: ys, s'⟩ := by
  obtain ⟨ops, rest, rfl⟩ := List.append_of_mem hu
  obtain ⟨s1, hq1, h1⟩ := run_ops ops s hq h
  have h2 := one h1 (.begin _ _ _)
  have h3 := one h2 (.setAnnounce f rest s1 hq1.1)
  exact ⟨_, rest, one h3 (.setEnter f rest _ hq1.2)⟩

theorem from_local {p : List Op} {t t' : Thread} {s s' : Shared} (hl : Local t s t' s') (h : From p t) : From p t' := by
  obtain ⟨h1, h2⟩ := h
  cases hl
  case begin op ops =>
    refine ⟨fun o ho => h1 o (List.mem_cons_of_mem _ ho), ?_⟩
    have := h1 op List.mem_cons_self
    cases op <;> first | exact this | trivial
  all_goals first | exact ⟨h1, h2⟩ | exact ⟨h1, trivial⟩

theorem reach_from {progs : List (List Op)} {s : State} (h : Reach progs s) :
    s.threads.length = progs.length ∧
    ∀ (i : Nat) (t : Thread) (p : List Op), s.threads[i]? = some t → progs[i]? = some p → From p t := by
  induction h with
  | start =>
    refine ⟨by simp, ?_⟩
    intro i t p ht hp
    simp only [List.getElem?_map, hp, Option.map_some, Option.some.injEq] at ht
    subst ht
    exact ⟨fun _ h => h, trivial⟩
  | step _ hs ih =>
    obtain ⟨xs, ys, t, t', sh, sh', hl⟩ := hs
    refine ⟨by simpa using ih.1, ?_⟩
    intro i u p hu hp
    have ih := ih.2 i
    simp only at hu ih
    rw [List.getElem?_append] at hu ih
    by_cases hi : i < xs.length
    · rw [if_pos hi] at hu ih
      exact ih u p hu hp
    · rw [if_neg hi] at hu ih
      cases hk : i - xs.length with
      | zero =>
        rw [hk] at hu ih
        simp only [List.getElem?_cons_zero, Option.some.injEq] at hu ih
        subst hu
        exact from_local hl (ih t p rfl hp)
      | succ n =>
        rw [hk] at hu ih
        simp only [List.getElem?_cons_succ] at hu ih
        exact ih u p hu hp

/-- C12 (b), exactly: a program has an execution with a data race on the function variable if and only if one of its
goroutines calls `SetIsGroupedFun` and another one `IsGrouped` (as every decoding and encoding of elements does),
whatever else they call and in whatever order. -/
theorem C12_function_race_iff (progs : List (List Op)) :
    (∃ s, Reach progs s ∧ Race .fn s) ↔
    ∃ (i j : Nat) (p q : List Op), i ≠ j ∧ progs[i]? = some p ∧ progs[j]? = some q ∧
      (∃ f, Op.set f ∈ p) ∧ ∃ t, Op.isGrouped t ∈ q := by
  constructor
  · rintro ⟨s, h, xs, t, ys, u, zs, w, w', hs, ht, hu, hw⟩
    have hi := inv_reach h
    obtain ⟨hlen, hfrom⟩ := reach_from h
    have ht' : s.threads[xs.length]? = some t := by rw [hs]; simp
    have hu' : s.threads[(xs ++ t :: ys).length]? = some u := by rw [hs]; simp
    have hne : xs.length ≠ (xs ++ t :: ys).length := by simp
    have hprog : ∀ (k : Nat) (v : Thread), s.threads[k]? = some v → ∃ p, progs[k]? = some p ∧ From p v := by
      intro k v hv
      have hk : k < s.threads.length := (List.getElem?_eq_some_iff.1 hv).1
      rw [hlen] at hk
      exact ⟨progs[k], List.getElem?_eq_getElem hk, hfrom k v _ hv (List.getElem?_eq_getElem hk)⟩
    have acc : ∀ (p : List Op) (t : Thread) (w : Bool), nextAccess t = some (.fn, w) → From p t →
        (w = true → t.pc.inW = true ∧ ∃ f, Op.set f ∈ p) ∧ (w = false → ∃ u, Op.isGrouped u ∈ p) := by
      intro p t w ht hf
      obtain ⟨pc, todo⟩ := t
      unfold nextAccess at ht
      simp only at ht
      split at ht
      · cases ht; exact ⟨fun h => (by cases h), fun _ => ⟨_, hf.2⟩⟩
      · cases ht
      · cases ht
      · cases ht; exact ⟨fun _ => ⟨rfl, _, hf.2⟩, fun h => (by cases h)⟩
      · cases ht
    obtain ⟨p, hp, hpf⟩ := hprog _ _ ht'
    obtain ⟨q, hq, hqf⟩ := hprog _ _ hu'
    have a1 := acc p t w ht hpf
    have a2 := acc q u w' hu hqf
    cases w <;> cases w'
    · simp at hw
    · exact ⟨_, _, q, p, hne.symm, hq, hp, (a2.1 rfl).2, a1.2 rfl⟩
    · exact ⟨_, _, p, q, hne, hp, hq, (a1.1 rfl).2, a2.2 rfl⟩
    · exfalso
      have e1 := hi.writers
      have h3 : nW s.threads = nW xs + t.pc.inW.toNat + (nW ys + u.pc.inW.toNat + nW zs) := by
        rw [show s.threads = xs ++ t :: (ys ++ u :: zs) by rw [hs]; simp]
        obtain ⟨p, o⟩ := t; obtain ⟨p', o'⟩ := u; rw [nW_split, nW_split]
      rw [(a1.1 rfl).1, (a2.1 rfl).1] at h3
      simp at h3
      split at e1 <;> omega
  · rintro ⟨i, j, p, q, hne, hi, hj, ⟨f, hf⟩, t, ht⟩
    have hquiet : Quiet ⟨false, false, 0, defaultGroupedTypes, none, []⟩ := ⟨rfl, rfl⟩
    have split : ∀ (i j : Nat) (p q : List Op), i < j → progs[i]? = some p → progs[j]? = some q →
        ∃ xs ys zs, progs = xs ++ p :: ys ++ q :: zs := by
      intro i j p q hij hp hq
      obtain ⟨hi, rfl⟩ := List.getElem?_eq_some_iff.1 hp
      obtain ⟨hj, rfl⟩ := List.getElem?_eq_some_iff.1 hq
      refine ⟨progs.take i, (progs.take j).drop (i + 1), progs.drop (j + 1), ?_⟩
      have e1 : progs = progs.take j ++ progs[j] :: progs.drop (j + 1) := by
        rw [← List.drop_eq_getElem_cons hj, List.take_append_drop]
      have e2 : progs.take j = progs.take i ++ progs[i] :: (progs.take j).drop (i + 1) := by
        have hl : i < (progs.take j).length := by simp; omega
        have := List.take_append_drop i (progs.take j)
        rw [List.take_take, Nat.min_eq_left (by omega), List.drop_eq_getElem_cons hl, List.getElem_take] at this
        exact this.symm
      rw [← e2]
      exact e1
    rcases Nat.lt_or_gt_of_ne hne with hlt | hlt
    · obtain ⟨xs, ys, zs, he⟩ := split i j p q hlt hi hj
      have h0 := Reach.start (progs := progs)
      have em : progs.map (⟨.idle, ·⟩) = (xs.map (⟨.idle, ·⟩) ++ ⟨.idle, p⟩ :: ys.map (⟨.idle, ·⟩)) ++ ⟨.idle, q⟩ :: zs.map (⟨.idle, ·⟩ : List Op → Thread) := by
        rw [he]; simp
      rw [em] at h0
      clear em he hi hj split
      obtain ⟨s1, r1, hq1, h1⟩ := run_to_load ht _ hquiet h0
      rw [List.append_assoc, List.cons_append] at h1
      obtain ⟨s2, r2, h2⟩ := run_to_store hf _ hq1 h1
      exact ⟨_, h2, _, _, _, _, _, true, false, (by simp only [List.append_assoc, List.cons_append]; rfl), rfl, rfl, .inl rfl⟩
    · obtain ⟨xs, ys, zs, he⟩ := split j i q p hlt hj hi
      have h0 := Reach.start (progs := progs)
      have em : progs.map (⟨.idle, ·⟩) = (xs.map (⟨.idle, ·⟩) ++ ⟨.idle, q⟩ :: ys.map (⟨.idle, ·⟩)) ++ ⟨.idle, p⟩ :: zs.map (⟨.idle, ·⟩ : List Op → Thread) := by
        rw [he]; simp
      rw [em] at h0
      clear em he hi hj split
      rw [List.append_assoc, List.cons_append] at h0
      obtain ⟨s1, r1, hq1, h1⟩ := run_to_load ht _ hquiet h0
      rw [← List.cons_append, ← List.append_assoc] at h1
      obtain ⟨s2, r2, h2⟩ := run_to_store hf _ hq1 h1
      exact ⟨_, h2, _, _, _, _, _, false, true, rfl, rfl, rfl, .inr rfl⟩

/-- Two goroutines that both install a function do not race. -/
example (f : IEType → Bool) (s : State) (h : Reach [[.set f], [.set f]] s) : ¬ Race .fn s := by
  intro hr
  obtain ⟨i, j, p, q, _, hp, hq, _, u, hu⟩ := (C12_function_race_iff _).1 ⟨s, h, hr⟩
  match j with
  | 0 => simp at hq; subst hq; simp at hu
  | 1 => simp at hq; subst hq; simp at hu
  | _ + 2 => simp at hq

end Concurrent
end Pfcp
