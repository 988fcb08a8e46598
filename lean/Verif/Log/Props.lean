/- Property theorems about the logger: C61. -/
import Verif.Log.Lemmas

namespace Pfcp
namespace Log

/-! ### Data races -/

/-- Two goroutines are about to touch the package variable `logger`, at least one of them writing. -/
def Race (s : State) : Prop :=
  ∃ xs ys zs op i c ops op' i' c' ops' w w', s.threads = xs ++ ⟨some (op, i :: c), ops⟩ :: ys ++ ⟨some (op', i' :: c'), ops'⟩ :: zs ∧
    i.access = some w ∧ i'.access = some w' ∧ (w = true ∨ w' = true)

/-- What is about to touch the variable has locked the mutex. -/
theorem holds_of_access {op : Op} {i : Instr} {c : List Instr} {ops : List Op} {w : Bool} (h : At ⟨some (op, i :: c), ops⟩)
    (hi : i.access = some w) : (⟨some (op, i :: c), ops⟩ : Thread).holds = true := by
  generalize hq : (⟨some (op, i :: c), ops⟩ : Thread) = q at *
  cases h with
  | idle => cases hq
  | inner l => cases hq; simp [Instr.access] at hi
  | inside op i _ h2 => cases hq; cases op <;> first | rfl | (simp [Op.body, setLogger] at h2)
  | exit => cases hq; simp [Instr.access] at hi
  | entry op' ops' =>
    simp only [Thread.mk.injEq, Option.some.injEq, Prod.mk.injEq] at hq
    have h3 := hq.1.2
    cases op' <;> simp only [Op.body, setLogger, List.cons_append, List.cons.injEq] at h3 <;> rw [h3.1] at hi <;>
      simp [Instr.access] at hi

/-- What is about to unlock the mutex has locked it. -/
theorem holds_of_unlock {op : Op} {c : List Instr} {ops : List Op} (h : At ⟨some (op, .unlock :: c), ops⟩) :
    (⟨some (op, .unlock :: c), ops⟩ : Thread).holds = true := by
  generalize hq : (⟨some (op, Instr.unlock :: c), ops⟩ : Thread) = q at *
  cases h with
  | idle => cases hq
  | inner l => cases hq
  | inside op i _ h2 => cases hq; cases op <;> simp [Op.body, setLogger] at h2
  | exit op i _ h2 => cases hq; cases op <;> first | rfl | (simp [Op.body, setLogger] at h2)
  | entry op' ops' =>
    simp only [Thread.mk.injEq, Option.some.injEq, Prod.mk.injEq] at hq
    have h3 := hq.1.2
    cases op' <;> simp [Op.body, setLogger] at h3

/-- C61 (a). In every execution of every program the package variable is only touched with the mutex locked: there is no
data race on it. -/
theorem C61_race_free (progs : List (List Op)) (s : State) (h : Reach progs s) : ¬ Race s := by
  have hi := inv_reach h
  rintro ⟨xs, ys, zs, op, i, c, ops, op', i', c', ops', w, w', hs, h1, h2, -⟩
  have a1 := holds_of_access (hi.at_ ⟨some (op, i :: c), ops⟩ (by rw [hs]; simp)) h1
  have a2 := holds_of_access (hi.at_ ⟨some (op', i' :: c'), ops'⟩ (by rw [hs]; simp)) h2
  have hh := hi.held
  rw [hs, nH_split, nH_split, a1, a2] at hh
  simp only [Bool.toNat_true] at hh
  split at hh <;> omega

/-- C61 (b). `Unlock` is never called on a mutex that is not locked (which would end the program). -/
theorem C61_no_fatal (progs : List (List Op)) (s : State) (h : Reach progs s) (op : Op) (c : List Instr) (ops : List Op)
    (ht : ⟨some (op, .unlock :: c), ops⟩ ∈ s.threads) : s.sh.held = true := by
  have hi := inv_reach h
  have hat := hi.at_ _ ht
  have hh := holds_of_unlock hat
  have h1 : 0 < nH s.threads := List.countP_pos_iff.2 ⟨_, ht, hh⟩
  rw [hi.held] at h1
  cases hd : s.sh.held with
  | true => rfl
  | false => rw [hd] at h1; simp at h1

/-! ### What the calls do -/

/-- The logger called for: the one given, or a new one of the package. -/
def install (d : Data) : Option Nat → Data
  | some n => ⟨.user n, d.next, d.silenced, d.out⟩
  | none => ⟨.made d.next, d.next + 1, d.silenced, d.out⟩

/-- What a call is documented to do, as if it were alone: install a logger, silence the current one, print. -/
def Op.does (d : Data) : Op → Data
  | .set l => install d l
  | .enable l => install d l
  | .disable => ⟨d.cur, d.next, d.cur :: d.silenced, d.out⟩
  | .logf m => ⟨d.cur, d.next, d.silenced, if d.silenced.contains d.cur then d.out else d.out ++ [(d.cur, m)]⟩

theorem run_does (d : Data) (op : Op) : op.run d = op.does d := by
  cases op with
  | set l => cases l <;> rfl
  | enable l => cases l <;> rfl
  | disable => rfl
  | logf m =>
    show (if d.cur ∈ d.silenced then d else { d with out := d.out ++ [(d.cur, m)] }) = _
    by_cases h : d.cur ∈ d.silenced <;> simp [Op.does, h]

/-- C61 (c). In every execution of every program, whenever the mutex is free, what has been printed and which logger is
installed are as if the calls that returned had run one after the other, in the order in which they returned. -/
theorem C61_linearizable (progs : List (List Op)) (s : State) (h : Reach progs s) (hf : s.sh.held = false) :
    s.sh.data = (s.sh.finished.map (·.2)).foldl Op.does init := by
  have hi := inv_reach h
  have h1 : nH s.threads = 0 := by rw [hi.held, hf]; rfl
  have h2 := hi.data
  rw [pend_of_not_held _ hi.at_ h1, List.append_nil] at h2
  rw [h2]
  congr 1
  funext d op
  exact run_does d op

/-- A run of one call to the end. -/
example : ∃ s, Reach [[.logf 5]] s ∧ s.sh.held = false ∧ s.sh.finished = [(0, .logf 5)] ∧ s.sh.data.out = [(.made 0, 5)] := by
  refine ⟨⟨[⟨none, []⟩], ⟨false, ⟨.made 0, 1, [], [(.made 0, 5)]⟩, [(0, .logf 5)]⟩⟩, ?_, rfl, rfl, rfl⟩
  refine .tail (s' := ⟨[⟨some (.logf 5, [.unlock]), []⟩], ⟨true, ⟨.made 0, 1, [], [(.made 0, 5)]⟩, []⟩⟩)
    (.tail (s' := ⟨[⟨some (.logf 5, [.print 5, .unlock]), []⟩], ⟨true, init, []⟩⟩)
      (.tail (s' := ⟨[⟨some (.logf 5, (Op.logf 5).body), []⟩], ⟨false, init, []⟩⟩) (.tail (.refl _) ?_) ?_) ?_) ?_
  · exact Step.mk [] _ _ _ _ _ (Local.begin _ _ _)
  · exact Step.mk [] _ _ _ _ _ (Local.lock _ _ _ _ rfl)
  · exact Step.mk [] _ _ _ _ _ (Local.act _ _ _ _ _ rfl)
  · exact Step.mk [] _ _ _ _ _ (Local.return _ _ _)

/-- C61 (d). This order agrees with the order of the calls of each goroutine, and no call is made up: those that returned
are the first calls of its program, followed by the one it is in and those still to make. -/
theorem C61_program_order (progs : List (List Op)) (s : State) (h : Reach progs s) (k : Nat) (t : Thread)
    (ht : s.threads[k]? = some t) : progs[k]? = some ((s.sh.finished.filter (·.1 == k)).map (·.2) ++
      (match t.cur with | some (op, _) => [op] | none => []) ++ t.todo) :=
  (inv_reach h).order.2 k t ht

/-- C61 (e). After `DisableLogging`, nothing is printed until another logger is installed. -/
theorem C61_disabled (d : Data) (ms : List Nat) :
    ((Op.disable :: ms.map .logf).foldl Op.does d).out = d.out := by
  have key : ∀ (ms : List Nat) (d : Data), d.cur ∈ d.silenced → ((ms.map Op.logf).foldl Op.does d).out = d.out := by
    intro ms
    induction ms with
    | nil => intros; rfl
    | cons m ms ih =>
      intro d hd
      have e : (Op.logf m).does d = d := by simp [Op.does, hd]
      rw [List.map_cons, List.foldl_cons, e]
      exact ih d hd
  exact key ms (Op.does d .disable) (by simp [Op.does])

/-- C61 (f), partial: a logger that was installed gets the messages. Missing: loggers that were silenced by an earlier
`DisableLogging`, see `C61_reinstall_violated`. -/
theorem C61_installed_partial (d : Data) (n : Nat) (ms : List Nat) (h : .user n ∉ d.silenced) :
    ((Op.set (some n) :: ms.map .logf).foldl Op.does d).out = d.out ++ ms.map fun m => (.user n, m) := by
  have key : ∀ (ms : List Nat) (d : Data), d.cur ∉ d.silenced → ((ms.map Op.logf).foldl Op.does d).out = d.out ++ ms.map fun m => (d.cur, m) := by
    intro ms
    induction ms with
    | nil => intros; simp
    | cons m ms ih =>
      intro d hd
      have e : (Op.logf m).does d = ⟨d.cur, d.next, d.silenced, d.out ++ [(d.cur, m)]⟩ := by simp [Op.does, hd]
      rw [List.map_cons, List.foldl_cons, e, ih ⟨d.cur, d.next, d.silenced, d.out ++ [(d.cur, m)]⟩ hd]
      simp
  exact key ms (Op.does d (.set (some n))) h
example : Logger.user 3 ∉ init.silenced := by decide

/-- `DisableLogging` silences the logger itself, so that installing it again does not bring the messages back. -/
theorem C61_reinstall_violated (n m : Nat) :
    ([.set (some n), .disable, .set (some n), .logf m].foldl Op.does init).out = [] := by
  simp [Op.does, install, init]

/-! ### Deadlock -/

/-- C61 (g), violated: `EnableLogging` locks a mutex that it has locked already. In no execution of any program does a
call of it ever return. -/
theorem C61_enable_violated (progs : List (List Op)) (s : State) (h : Reach progs s) (k : Nat) (l : Option Nat) :
    (k, Op.enable l) ∉ s.sh.finished := by
  unfold Reach at h
  generalize hs : start progs = s0 at h
  induction h with
  | refl => subst hs; simp [start]
  | tail h1 h2 ih =>
    have hi := inv_reach (progs := progs) (show Reach progs _ by unfold Reach; rw [hs]; exact h1)
    obtain ⟨xs, ys, t, t', sh, sh', hl⟩ := h2
    have hat : At t := hi.at_ t (by simp)
    cases hl
    case «return» op ops =>
      intro hm
      simp only [List.mem_append, List.mem_singleton, Prod.mk.injEq] at hm
      rcases hm with hm | ⟨-, rfl⟩
      · exact ih hm
      · generalize hq : (⟨some (Op.enable l, [Instr.unlock]), ops⟩ : Thread) = q at *
        cases hat with
        | idle => cases hq
        | inner l => cases hq
        | inside op i _ h2 => cases hq
        | exit op i _ h2 => cases hq; simp [Op.body, setLogger] at h2
        | entry op' ops' =>
          simp only [Thread.mk.injEq, Option.some.injEq, Prod.mk.injEq] at hq
          have h3 := hq.1.2
          cases op' <;> simp [Op.body, setLogger] at h3
    all_goals exact ih

/-- A goroutine has locked the mutex in `EnableLogging`. -/
def InEnable (s : State) : Prop := ∃ l ops, ⟨some (.enable l, setLogger l ++ [.unlock]), ops⟩ ∈ s.threads

theorem stuck_step {progs : List (List Op)} {s s' : State} (hi : Inv progs s) (he : InEnable s) (h : Step s s') :
    InEnable s' ∧ s'.sh = s.sh := by
  obtain ⟨l, ops, hm⟩ := he
  have hh : (⟨some (.enable l, setLogger l ++ [.unlock]), ops⟩ : Thread).holds = true := rfl
  have hheld : s.sh.held = true := by
    have h1 : 0 < nH s.threads := List.countP_pos_iff.2 ⟨_, hm, hh⟩
    rw [hi.held] at h1
    cases hd : s.sh.held with
    | true => rfl
    | false => rw [hd] at h1; simp at h1
  obtain ⟨xs, ys, t, t', sh, sh', hl⟩ := h
  have hat : At t := hi.at_ t (by simp)
  have one := hi.held
  rw [nH_split, if_pos hheld] at one
  have keep : t.holds = false → t ≠ ⟨some (.enable l, setLogger l ++ [.unlock]), ops⟩ := by
    intro h1 h2; rw [h2] at h1; cases h1
  have stay : t.holds = false → InEnable ⟨xs ++ t' :: ys, sh'⟩ := by
    intro h1
    refine ⟨l, ops, ?_⟩
    simp only [List.mem_append, List.mem_cons] at hm ⊢
    rcases hm with hm | hm | hm
    · exact .inl hm
    · exact absurd hm.symm (keep h1)
    · exact .inr (.inr hm)
  have other : t.holds = true → t = ⟨some (.enable l, setLogger l ++ [.unlock]), ops⟩ := by
    intro h1
    rw [h1] at one
    simp only [Bool.toNat_true] at one
    simp only [List.mem_append, List.mem_cons] at hm
    rcases hm with hm | hm | hm
    · have : 0 < nH xs := List.countP_pos_iff.2 ⟨_, hm, hh⟩
      omega
    · exact hm.symm
    · have : 0 < nH ys := List.countP_pos_iff.2 ⟨_, hm, hh⟩
      omega
  cases hl
  case begin op ops' => exact ⟨stay rfl, rfl⟩
  case lock op c ops' hf => rw [hf] at hheld; cases hheld
  case unlock op i c ops' =>
    have hx := holds_of_unlock hat
    exact absurd (other hx) (by simp [setLogger])
  case «return» op ops' =>
    have hx := holds_of_unlock hat
    exact absurd (other hx) (by simp [setLogger])
  case act i op c ops' hs =>
    obtain ⟨w, hw⟩ := Option.isSome_iff_exists.1 hs
    have hx := holds_of_access hat hw
    have := other hx
    simp only [Thread.mk.injEq, Option.some.injEq, Prod.mk.injEq, setLogger, List.cons_append, List.cons.injEq] at this
    rw [this.1.2.1] at hs
    cases hs

/-- C61 (h), violated: from the moment `EnableLogging` has locked the mutex, in every continuation nothing is printed, no
logger is installed and no call of any goroutine returns; `message.Parse` on a message of unknown type, which logs,
hangs. -/
theorem C61_enable_stuck_violated (progs : List (List Op)) (s s' : State) (h : Reach progs s) (he : InEnable s)
    (h' : Steps s s') : s'.sh = s.sh := by
  have key : InEnable s' ∧ s'.sh = s.sh ∧ Inv progs s' := by
    induction h' with
    | refl => exact ⟨he, rfl, inv_reach h⟩
    | tail _ h2 ih =>
      obtain ⟨i1, i2, i3⟩ := ih
      obtain ⟨j1, j2⟩ := stuck_step i3 i1 h2
      exact ⟨j1, j2.trans i2, inv_step i3 h2⟩
  exact key.2.1

/-- Such a state is reached by every program that calls `EnableLogging` first, in two steps. -/
theorem C61_enable_reached (l : Option Nat) (ops : List Op) (progs : List (List Op)) :
    ∃ s, Reach ((.enable l :: ops) :: progs) s ∧ InEnable s := by
  refine ⟨⟨⟨some (.enable l, setLogger l ++ [.unlock]), ops⟩ :: progs.map (⟨none, ·⟩), ⟨true, init, []⟩⟩, ?_, l, ops, by simp⟩
  refine .tail (s' := ⟨⟨some (.enable l, (Op.enable l).body), ops⟩ :: progs.map (⟨none, ·⟩), ⟨false, init, []⟩⟩) (.tail (.refl _) ?_) ?_
  · exact Step.mk [] _ _ _ _ _ (Local.begin (.enable l) ops _)
  · exact Step.mk [] _ _ _ _ _ (Local.lock (.enable l) _ ops _ rfl)

/-- The goroutine has nothing left to do. -/
def Done (t : Thread) : Prop := t.cur = none ∧ t.todo = []

/-- C61 (i), partial: a program that never calls `EnableLogging` cannot get stuck: while some goroutine has calls to
finish, some goroutine can move. Missing: programs that call it, see `C61_enable_violated`. -/
theorem C61_no_deadlock_partial (progs : List (List Op)) (hp : ∀ p ∈ progs, ∀ l, Op.enable l ∉ p) (s : State)
    (h : Reach progs s) (hu : ∃ t ∈ s.threads, ¬ Done t) : ∃ s', Step s s' := by
  have hi := inv_reach h
  obtain ⟨ts, sh⟩ := s
  obtain ⟨t, ht, hnd⟩ := hu
  simp only at ht
  have lift : ∀ u ∈ ts, (∀ k, ∃ u' sh', Local k u sh u' sh') → ∃ s', Step ⟨ts, sh⟩ s' := by
    intro u hu hl
    obtain ⟨xs, ys, rfl⟩ := List.append_of_mem hu
    obtain ⟨u', sh', hl⟩ := hl xs.length
    exact ⟨_, Step.mk _ _ _ _ _ _ hl⟩
  have noenable : ∀ u ∈ ts, ∀ op ∈ u.now, ∀ l, op ≠ .enable l := by
    rintro u hu op ho l rfl
    obtain ⟨k, hk⟩ := List.mem_iff_getElem?.1 hu
    have := hi.order.2 k u hk
    exact hp _ (List.mem_of_getElem? this) l (by simp [ho])
  have act : ∀ u ∈ ts, ∀ op i ops, op.body = [.lock, i, .unlock] → u = ⟨some (op, [i, .unlock]), ops⟩ → ∃ s', Step ⟨ts, sh⟩ s' := by
    rintro u hu op i ops hb rfl
    refine lift _ hu fun k => ⟨_, _, Local.act i op _ ops _ ?_⟩
    cases op <;> simp only [Op.body, setLogger, List.cons_append, List.cons.injEq, List.nil_append] at hb
    · rw [← hb.2.1]; rfl
    · simp at hb
    · rw [← hb.2.1]; rfl
    · rw [← hb.2.1]; rfl
  have pastLock : ∀ u ∈ ts, u.holds = true → ∃ s', Step ⟨ts, sh⟩ s' := by
    intro u hu hh
    cases hi.at_ u hu with
    | idle => cases hh
    | entry op ops => cases op <;> cases hh
    | inner l ops => exact absurd rfl (noenable _ hu (.enable l) (by simp [Thread.now]) l)
    | inside op i ops hb => exact act _ hu op i ops hb rfl
    | exit op i ops hb => exact lift _ hu fun k => ⟨_, _, Local.return op ops _⟩
  cases hd : sh.held with
  | true =>
    have h1 : 0 < nH ts := by have := hi.held; simp only [hd] at this; simp at this; omega
    obtain ⟨u, hu, hh⟩ := List.countP_pos_iff.1 h1
    exact pastLock u hu hh
  | false =>
    cases hi.at_ t ht with
    | idle ops =>
      cases ops with
      | nil => exact absurd ⟨rfl, rfl⟩ hnd
      | cons op ops => exact lift _ ht fun k => ⟨_, _, Local.begin op ops _⟩
    | entry op ops =>
      refine lift _ ht fun k => ?_
      cases op <;> exact ⟨_, _, Local.lock _ _ _ _ hd⟩
    | inner l ops => exact lift _ ht fun k => ⟨_, _, Local.lock _ _ _ _ hd⟩
    | inside op i ops hb => exact act _ ht op i ops hb rfl
    | exit op i ops hb => exact lift _ ht fun k => ⟨_, _, Local.return op ops _⟩
example : ∀ p ∈ [[Op.set (some 1), .logf 5], [.disable, .set none, .logf 6]], ∀ l, Op.enable l ∉ p := by
  intro p hp l
  simp at hp
  rcases hp with rfl | rfl <;> simp

/-- Executions of exactly `n` steps. -/
inductive NSteps : Nat → State → State → Prop
  | nil (s) : NSteps 0 s s
  | cons {n s s' s''} : Step s s' → NSteps n s' s'' → NSteps (n + 1) s s''

def cost (t : Thread) : Nat := (match t.cur with | some (_, c) => c.length | none => 0) + 6 * t.todo.length

theorem cost_step {s s' : State} (h : Step s s') : (s'.threads.map cost).sum < (s.threads.map cost).sum := by
  obtain ⟨xs, ys, t, t', sh, sh', hl⟩ := h
  have : cost t' < cost t := by
    cases hl
    case begin op ops => cases op <;> simp [cost, Op.body, setLogger] <;> omega
    all_goals simp [cost] <;> omega
  simp only [List.map_append, List.map_cons, List.sum_append, List.sum_cons]
  omega

/-- C61 (j). Every execution is finite, at most six steps for each call. Together with (i): without `EnableLogging`, all
calls return however the goroutines are scheduled. -/
theorem C61_terminates (progs : List (List Op)) (n : Nat) (s : State) (h : NSteps n (start progs) s) :
    n ≤ 6 * (progs.map List.length).sum := by
  have key : ∀ n s s', NSteps n s s' → n ≤ (s.threads.map cost).sum := by
    intro n s s' h
    induction h with
    | nil s => exact Nat.zero_le _
    | cons hs _ ih => have := cost_step hs; omega
  have h1 := key n _ s h
  have h2 : ∀ ps : List (List Op), ((ps.map (⟨none, ·⟩)).map cost).sum = 6 * (ps.map List.length).sum := by
    intro ps
    induction ps with
    | nil => rfl
    | cons p ps ih =>
      simp only [List.map_cons, List.sum_cons] at ih ⊢
      rw [ih]
      simp [cost]; omega
  rw [← h2]
  exact h1

end Log
end Pfcp
