/- Property theorems about concurrent configuration: C12, C48, C49. -/
import Verif.Config.Concurrent

namespace Pfcp
namespace Concurrent

/-! ### C12 -/

theorem nR_pos {ts xs ys : List Thread} {t : Thread} (h : ts = xs ++ t :: ys) (hp : t.pc.inR = true) :
    1 ≤ nR ts := by
  subst h; obtain ⟨p, o⟩ := t; rw [nR_split]; simp only at hp; rw [hp]; simp; omega

theorem nW_pos {ts xs ys : List Thread} {t : Thread} (h : ts = xs ++ t :: ys) (hp : t.pc.inW = true) :
    1 ≤ nW ts := by
  subst h; obtain ⟨p, o⟩ := t; rw [nW_split]; simp only at hp; rw [hp]; simp; omega

/-- C12 (a). The table of grouped types is never accessed by one goroutine while another one writes it, in any
execution of any program. -/
theorem C12_table_race_free (progs : List (List Op)) (s : State) (h : Reach progs s) :
    ¬ Race .keys s := by
  have hi := inv_reach h
  rintro ⟨xs, t, ys, u, zs, w, w', hs, ht, hu, hw⟩
  have acc : ∀ (t : Thread) (w : Bool), nextAccess t = some (.keys, w) →
      (w = false → t.pc.inR = true) ∧ (w = true → t.pc.inW = true) := by
    intro t w ht
    unfold nextAccess at ht
    split at ht
    · cases ht
    · rename_i hp; cases ht; simp [hp, PC.inR]
    · rename_i hp; cases ht; simp [hp, PC.inW]
    · cases ht
    · cases ht
  have at1 := acc t w ht
  have au1 := acc u w' hu
  have hs' : s.threads = xs ++ t :: (ys ++ u :: zs) := by rw [hs]; simp
  have hu' : s.threads = (xs ++ t :: ys) ++ u :: zs := hs
  have e1 := hi.writers
  have e2 := hi.readers
  have two : w = true → w' = true → False := by
    intro h1 h2
    have h3 : nW s.threads = nW xs + t.pc.inW.toNat + (nW ys + u.pc.inW.toNat + nW zs) := by
      rw [hs']; obtain ⟨p, o⟩ := t; obtain ⟨p', o'⟩ := u; rw [nW_split, nW_split]
    rw [at1.2 h1, au1.2 h2] at h3
    simp at h3
    split at e1 <;> omega
  have one : ∀ (a b : Thread), a.pc.inW = true → b.pc.inR = true →
      (∃ x y, s.threads = x ++ a :: y) → (∃ x y, s.threads = x ++ b :: y) → False := by
    rintro a b ha hb ⟨x, y, hx⟩ ⟨x', y', hx'⟩
    have h1 := nW_pos hx ha
    have h2 := nR_pos hx' hb
    have : s.sh.writer = true := by
      cases hwr : s.sh.writer with
      | true => rfl
      | false => simp [hwr] at e1; omega
    have := hi.excl this
    omega
  cases w <;> cases w'
  · simp at hw
  · exact one u t (au1.2 rfl) (at1.1 rfl) ⟨_, _, hu'⟩ ⟨_, _, hs'⟩
  · exact one t u (at1.2 rfl) (au1.1 rfl) ⟨_, _, hs'⟩ ⟨_, _, hu'⟩
  · exact two rfl rfl

/-- C12 (b), violated: `IsGrouped` reads the installed function without taking the lock, so one goroutine
decoding while another calls `SetIsGroupedFun` is a data race. -/
theorem C12_function_race_violated (t : IEType) (f : IEType → Bool) :
    ∃ s, Reach [[.isGrouped t], [.set f]] s ∧ Race .fn s := by
  refine ⟨⟨[⟨.loadFun t, []⟩, ⟨.storeFun f, []⟩], ⟨true, true, 0, defaultGroupedTypes, none, []⟩⟩, ?_, ?_⟩
  · apply Reach.step (s := ⟨[⟨.loadFun t, []⟩, ⟨.setWait f, []⟩], ⟨true, false, 0, defaultGroupedTypes, none, []⟩⟩)
    · apply Reach.step (s := ⟨[⟨.loadFun t, []⟩, ⟨.setLock f, []⟩], ⟨false, false, 0, defaultGroupedTypes, none, []⟩⟩)
      · apply Reach.step (s := ⟨[⟨.loadFun t, []⟩, ⟨.idle, [.set f]⟩], ⟨false, false, 0, defaultGroupedTypes, none, []⟩⟩)
        · apply Reach.step Reach.start
          exact Step.mk [] [⟨.idle, [.set f]⟩] _ _ _ _ (Local.begin (.isGrouped t) [] _)
        · exact Step.mk [⟨.loadFun t, []⟩] [] _ _ _ _ (Local.begin (.set f) [] _)
      · exact Step.mk [⟨.loadFun t, []⟩] [] _ _ _ _ (Local.setAnnounce f [] _ rfl)
    · exact Step.mk [⟨.loadFun t, []⟩] [] _ _ _ _ (Local.setEnter f [] _ rfl)
  · exact ⟨[], ⟨.loadFun t, []⟩, [], ⟨.storeFun f, []⟩, [], false, true, rfl, rfl, rfl, .inr rfl⟩

/-- The goroutine is not, and will not be, inside `SetIsGroupedFun`. -/
def NoSet (t : Thread) : Prop :=
  (match t.pc with
    | .setLock _ | .setWait _ | .storeFun _ | .setUnlock => False
    | _ => True) ∧ ∀ op ∈ t.todo, ∀ f, op ≠ .set f

/-- C12 (b), partial: if no goroutine calls `SetIsGroupedFun` (it is called, if at all, before the goroutines
start), there is no race on the function variable either. Missing: the statement without that condition,
which is false. -/
theorem C12_function_race_partial (progs : List (List Op))
    (hp : ∀ p ∈ progs, ∀ op ∈ p, ∀ f, op ≠ .set f) (s : State) (h : Reach progs s) (v : Var) :
    ¬ Race v s := by
  have hinv : ∀ t ∈ s.threads, NoSet t := by
    induction h with
    | start =>
      intro t ht
      obtain ⟨p, hpm, rfl⟩ := List.mem_map.1 ht
      exact ⟨trivial, hp p hpm⟩
    | step _ hs ih =>
      obtain ⟨xs, ys, t, t', sh, sh', hl⟩ := hs
      have hold : NoSet t := ih t (by simp)
      have hnew : NoSet t' := by
        cases hl
        case begin op ops _ =>
          refine ⟨?_, fun op' h' => hold.2 op' (List.mem_cons_of_mem _ h')⟩
          cases op with
          | set f => exact absurd rfl (hold.2 _ List.mem_cons_self f)
          | isGrouped t => trivial
          | add ts => trivial
        all_goals first
          | exact ⟨trivial, hold.2⟩
          | exact absurd hold.1 (by simp)
      intro u hu
      simp only [List.mem_append, List.mem_cons] at hu
      rcases hu with hu | rfl | hu
      · exact ih u (by simp [hu])
      · exact hnew
      · exact ih u (by simp [hu])
  cases v with
  | keys => exact C12_table_race_free progs s h
  | fn =>
    rintro ⟨xs, t, ys, u, zs, w, w', hs, ht, hu, hw⟩
    have acc : ∀ t ∈ s.threads, ∀ w, nextAccess t = some (.fn, w) → w = false := by
      intro t htm w ht
      unfold nextAccess at ht
      split at ht
      · cases ht; rfl
      · cases ht
      · cases ht
      · rename_i hpc
        have := (hinv t htm).1
        rw [hpc] at this
        exact this.elim
      · cases ht
    have h1 := acc t (by rw [hs]; simp) w ht
    have h2 := acc u (by rw [hs]; simp) w' hu
    rcases hw with h | h
    · rw [h1] at h; cases h
    · rw [h2] at h; cases h

/-- A program meeting the hypothesis: two decoders and a goroutine registering types. -/
example : ∀ p ∈ [[Op.isGrouped 1, .isGrouped 2], [.isGrouped 0x8001], [.add [0x8001, 0x8002]]],
    ∀ op ∈ p, ∀ f, op ≠ .set f := by
  intro p hp op ho f
  simp at hp
  rcases hp with rfl | rfl | rfl <;> simp at ho
  · rcases ho with rfl | rfl <;> simp
  · subst ho; simp
  · subst ho; simp

/-! ### C48 no deadlock -/

def Finished (t : Thread) : Prop := t.pc = .idle ∧ t.todo = []

theorem exists_of_countP {ts : List Thread} {p : Thread → Bool} (h : 0 < ts.countP p) :
    ∃ xs t ys, ts = xs ++ t :: ys ∧ p t = true := by
  rw [List.countP_pos_iff] at h
  obtain ⟨t, ht, hp⟩ := h
  obtain ⟨xs, ys, rfl⟩ := List.append_of_mem ht
  exact ⟨xs, t, ys, rfl, hp⟩

/-- C48 (a). In every reachable state of every program, if some goroutine has calls to finish then some
goroutine can move: the lock is never left held and calls never wait for each other in a circle. -/
theorem C48_no_deadlock (progs : List (List Op)) (s : State) (h : Reach progs s)
    (hu : ∃ t ∈ s.threads, ¬ Finished t) : ∃ s', Step s s' := by
  have hi := inv_reach h
  obtain ⟨ts, sh⟩ := s
  obtain ⟨t, ht, hnf⟩ := hu
  simp only at ht
  have stepR : ∀ t : Thread, t.pc.inR = true → ∃ t' sh', Local t sh t' sh' := by
    rintro ⟨p, o⟩ hp
    cases p <;> simp [PC.inR] at hp
    · exact ⟨_, _, Local.readMap _ _ _⟩
    · exact ⟨_, _, Local.runlock _ _⟩
  have stepW : ∀ t : Thread, t.pc.inW = true → ∃ t' sh', Local t sh t' sh' := by
    rintro ⟨p, o⟩ hp
    cases p <;> simp [PC.inW] at hp
    · rename_i d r
      cases r with
      | nil => exact ⟨_, _, Local.addUnlock _ _ _⟩
      | cons a r => exact ⟨_, _, Local.addWrite _ _ _ _ _⟩
    · exact ⟨_, _, Local.setStore _ _ _⟩
    · exact ⟨_, _, Local.setUnlock _ _⟩
  have lift : ∀ xs t ys, ts = xs ++ t :: ys → (∃ t' sh', Local t sh t' sh') →
      ∃ s', Step ⟨ts, sh⟩ s' := by
    rintro xs t ys rfl ⟨t', sh', hl⟩
    exact ⟨_, Step.mk _ _ _ _ _ _ hl⟩
  have hA := hi.announced
  have hR := hi.readers
  simp only at hA hR
  by_cases hr : 0 < sh.readers
  · obtain ⟨xs, u, ys, he, hp⟩ := exists_of_countP (ts := ts) (p := fun t => t.pc.inR) (by
      have : nR ts = ts.countP fun t => t.pc.inR := rfl
      omega)
    exact lift xs u ys he (stepR u hp)
  · have hr0 : sh.readers = 0 := by omega
    cases ha : sh.announced with
    | true =>
      rw [ha] at hA
      simp only [if_true] at hA
      obtain ⟨xs, u, ys, he, hp⟩ := exists_of_countP (ts := ts) (p := fun t => t.pc.inW || t.pc.waiting) (by
        have : nA ts = ts.countP fun t => t.pc.inW || t.pc.waiting := rfl
        omega)
      apply lift xs u ys he
      simp only [Bool.or_eq_true] at hp
      rcases hp with hp | hp
      · exact stepW u hp
      · obtain ⟨p, o⟩ := u
        cases p <;> simp [PC.waiting] at hp
        · exact ⟨_, _, Local.addEnter _ _ _ hr0⟩
        · exact ⟨_, _, Local.setEnter _ _ _ hr0⟩
    | false =>
      obtain ⟨xs, ys, he⟩ := List.append_of_mem ht
      apply lift xs t ys he
      obtain ⟨p, o⟩ := t
      cases p with
      | idle =>
        cases o with
        | nil => exact absurd ⟨rfl, rfl⟩ hnf
        | cons op ops => exact ⟨_, _, Local.begin _ _ _⟩
      | loadFun t =>
        cases hf : sh.fn with
        | none => exact ⟨_, _, Local.loadInitial _ _ _ hf⟩
        | some f => exact ⟨_, _, Local.loadUser _ _ _ f hf⟩
      | rlock t => exact ⟨_, _, Local.rlock _ _ _ ha⟩
      | readMap t => exact stepR _ rfl
      | runlock => exact stepR _ rfl
      | addLock ts => exact ⟨_, _, Local.addAnnounce _ _ _ ha⟩
      | addWait ts => exact ⟨_, _, Local.addEnter _ _ _ hr0⟩
      | adding d r => exact stepW _ rfl
      | setLock f => exact ⟨_, _, Local.setAnnounce _ _ _ ha⟩
      | setWait f => exact ⟨_, _, Local.setEnter _ _ _ hr0⟩
      | storeFun f => exact stepW _ rfl
      | setUnlock => exact stepW _ rfl

def opCost : Op → Nat
  | .isGrouped _ => 5
  | .add ts => 4 + ts.length
  | .set _ => 5

def pcCost : PC → Nat
  | .idle => 0
  | .loadFun _ => 4
  | .rlock _ => 3
  | .readMap _ => 2
  | .runlock => 1
  | .addLock ts => 3 + ts.length
  | .addWait ts => 2 + ts.length
  | .adding _ r => 1 + r.length
  | .setLock _ => 4
  | .setWait _ => 3
  | .storeFun _ => 2
  | .setUnlock => 1

def cost (t : Thread) : Nat := pcCost t.pc + (t.todo.map opCost).sum

theorem cost_step {s s' : State} (h : Step s s') :
    (s'.threads.map cost).sum < (s.threads.map cost).sum := by
  obtain ⟨xs, ys, t, t', sh, sh', hl⟩ := h
  have : cost t' < cost t := by
    cases hl
    case begin op ops =>
      cases op <;> simp [cost, pcCost, opCost, Op.start] <;> omega
    all_goals simp [cost, pcCost] <;> omega
  simp only [List.map_append, List.map_cons, List.sum_append, List.sum_cons]
  omega

/-- Executions of exactly `n` steps. -/
inductive Steps : Nat → State → State → Prop
  | nil (s) : Steps 0 s s
  | cons {n s s' s''} : Step s s' → Steps n s' s'' → Steps (n + 1) s s''

/-- C48 (b). Every execution is finite: at most five steps per query or installation and four plus the number
of types per registration. Together with (a): however the goroutines are scheduled, all calls return. -/
theorem C48_terminates (progs : List (List Op)) (n : Nat) (s : State)
    (h : Steps n ⟨progs.map (⟨.idle, ·⟩), ⟨false, false, 0, defaultGroupedTypes, none, []⟩⟩ s) :
    n ≤ (progs.map fun p => (p.map opCost).sum).sum := by
  have key : ∀ n s s', Steps n s s' → n ≤ (s.threads.map cost).sum := by
    intro n s s' h
    induction h with
    | nil s => exact Nat.zero_le _
    | cons hs _ ih => have := cost_step hs; omega
  have := key n _ s h
  simp only [List.map_map] at this
  have e : (cost ∘ fun x : List Op => (⟨.idle, x⟩ : Thread)) = fun p => (p.map opCost).sum := by
    funext p; simp [cost, pcCost]
  rwa [e] at this

/-! ### C49 registrations are atomic -/

/-- C49. Whenever a goroutine looks a type up in the table, the table holds exactly the defaults and the types
of the registration calls that have completed: a call registering several types is seen by each lookup
entirely or not at all. -/
theorem C49_atomic_registration (progs : List (List Op)) (s : State) (h : Reach progs s)
    (t : Thread) (ht : t ∈ s.threads) (x : IEType) (hp : t.pc = .readMap x) (y : IEType) :
    y ∈ s.sh.keys ↔ y ∈ defaultGroupedTypes ∨ ∃ c ∈ s.sh.finished, y ∈ c := by
  have hi := inv_reach h
  obtain ⟨xs, ys, he⟩ := List.append_of_mem ht
  have h1 := nR_pos he (by rw [hp]; rfl)
  have h2 := hi.readers
  have h3 : s.sh.writer = false := by
    cases hw : s.sh.writer with
    | false => rfl
    | true => have := hi.excl hw; omega
  have h4 : nW s.threads = 0 := by rw [hi.writers, h3]; rfl
  rw [hi.keys, written_nil _ h4]
  simp

/-- The calls a goroutine is in or has still to make are calls of the program. -/
def FromProgs (progs : List (List Op)) (t : Thread) : Prop :=
  (match t.pc with
    | .addLock ts | .addWait ts => ∃ p ∈ progs, Op.add ts ∈ p
    | .adding d r => ∃ p ∈ progs, Op.add (d ++ r) ∈ p
    | _ => True) ∧ ∀ op ∈ t.todo, ∃ p ∈ progs, op ∈ p

/-- C49 (b). The completed registrations are whole calls of the program, with all their types. -/
theorem C49_finished_are_calls (progs : List (List Op)) (s : State) (h : Reach progs s) :
    ∀ c ∈ s.sh.finished, ∃ p ∈ progs, Op.add c ∈ p := by
  have key : (∀ t ∈ s.threads, FromProgs progs t) ∧
      ∀ c ∈ s.sh.finished, ∃ p ∈ progs, Op.add c ∈ p := by
    induction h with
    | start =>
      refine ⟨?_, by simp⟩
      intro t ht
      obtain ⟨p, hpm, rfl⟩ := List.mem_map.1 ht
      exact ⟨trivial, fun op ho => ⟨p, hpm, ho⟩⟩
    | step _ hs ih =>
      obtain ⟨xs, ys, t, t', sh, sh', hl⟩ := hs
      have hold : FromProgs progs t := ih.1 t (by simp)
      have hfin := ih.2
      simp only at hfin
      have both : FromProgs progs t' ∧ ∀ c ∈ sh'.finished, ∃ p ∈ progs, Op.add c ∈ p := by
        cases hl
        case begin op ops _ =>
          refine ⟨⟨?_, fun op' h' => hold.2 op' (List.mem_cons_of_mem _ h')⟩, hfin⟩
          have := hold.2 op List.mem_cons_self
          cases op with
          | set f => trivial
          | isGrouped t => trivial
          | add ts => exact this
        case addWrite d u ts ops _ =>
          refine ⟨⟨?_, hold.2⟩, hfin⟩
          have := hold.1
          simp only at this ⊢
          simpa using this
        case addUnlock d ops _ =>
          refine ⟨⟨trivial, hold.2⟩, ?_⟩
          intro c hc
          simp only [List.mem_append, List.mem_singleton] at hc
          rcases hc with hc | rfl
          · exact hfin c hc
          · have := hold.1
            simpa using this
        all_goals first
          | exact ⟨⟨trivial, hold.2⟩, hfin⟩
          | exact ⟨⟨hold.1, hold.2⟩, hfin⟩
      refine ⟨?_, both.2⟩
      intro u hu
      simp only [List.mem_append, List.mem_cons] at hu
      rcases hu with hu | rfl | hu
      · exact ih.1 u (by simp [hu])
      · exact both.1
      · exact ih.1 u (by simp [hu])
  exact key.2

end Concurrent
end Pfcp
