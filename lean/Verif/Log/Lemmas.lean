/- The invariant of the logger model. -/
import Verif.Log.Model

namespace Pfcp
namespace Log

/-- The places a goroutine can be at. -/
inductive At : Thread → Prop
  | idle (ops) : At ⟨none, ops⟩
  | entry (op ops) : At ⟨some (op, op.body), ops⟩
  | inner (l ops) : At ⟨some (.enable l, setLogger l ++ [.unlock]), ops⟩
  | inside (op i ops) : op.body = [.lock, i, .unlock] → At ⟨some (op, [i, .unlock]), ops⟩
  | exit (op i ops) : op.body = [.lock, i, .unlock] → At ⟨some (op, [.unlock]), ops⟩

/-- The goroutine has locked the mutex. -/
def Thread.holds (t : Thread) : Bool :=
  match t.cur with
  | some (.enable _, c) => c.length == 4
  | some (_, c) => c.length == 2 || c.length == 1
  | none => false

/-- The call whose effect is done but which has not returned. -/
def Thread.pending (t : Thread) : List Op :=
  match t.cur with
  | some (op, [.unlock]) => [op]
  | _ => []

/-- The call the goroutine is in. -/
def Thread.now (t : Thread) : List Op :=
  match t.cur with
  | some (op, _) => [op]
  | none => []

def nH (ts : List Thread) : Nat := ts.countP Thread.holds
def pend (ts : List Thread) : List Op := ts.flatMap Thread.pending

theorem nH_split (xs ys : List Thread) (t : Thread) : nH (xs ++ t :: ys) = nH xs + t.holds.toNat + nH ys := by
  unfold nH; rw [List.countP_append, List.countP_cons]; cases t.holds <;> simp <;> omega

theorem pend_split (xs ys : List Thread) (t : Thread) : pend (xs ++ t :: ys) = pend xs ++ t.pending ++ pend ys := by
  unfold pend; simp

/-- Running calls one after the other. -/
def Op.run (d : Data) (op : Op) : Data := op.body.foldl (fun d i => i.effect d) d

structure Inv (progs : List (List Op)) (s : State) : Prop where
  at_ : ∀ t ∈ s.threads, At t
  held : nH s.threads = if s.sh.held then 1 else 0
  data : s.sh.data = (s.sh.finished.map (·.2) ++ pend s.threads).foldl Op.run init
  order : s.threads.length = progs.length ∧ ∀ (k : Nat) (t : Thread), s.threads[k]? = some t →
    progs[k]? = some ((s.sh.finished.filter (·.1 == k)).map (·.2) ++ t.now ++ t.todo)

theorem inv_start (progs : List (List Op)) : Inv progs (start progs) := by
  constructor
  · intro t ht
    obtain ⟨p, -, rfl⟩ := List.mem_map.1 ht
    exact .idle p
  · simp [start, nH, List.countP_map, Function.comp_def, Thread.holds]
  · have : pend (start progs).threads = [] := by
      unfold pend
      rw [List.flatMap_eq_nil_iff]
      intro t ht
      obtain ⟨p, -, rfl⟩ := List.mem_map.1 ht
      rfl
    rw [this]
    rfl
  · refine ⟨by simp [start], fun k t h => ?_⟩
    simp only [start, List.getElem?_map, Option.map_eq_some_iff] at h
    obtain ⟨p, h1, rfl⟩ := h
    simp [start, Thread.now, h1]

theorem pend_of_not_held (ts : List Thread) (ha : ∀ t ∈ ts, At t) (h : nH ts = 0) : pend ts = [] := by
  unfold pend
  rw [List.flatMap_eq_nil_iff]
  intro t ht
  have h1 := List.countP_eq_zero.1 h t ht
  cases ha t ht with
  | idle => rfl
  | entry op => cases op <;> rfl
  | inner l => rfl
  | inside op i _ h2 => cases i <;> first | rfl
  | exit op i ops h2 => cases op <;> simp_all [Thread.holds, Op.body, setLogger]

theorem set_get {xs ys : List Thread} {t t' : Thread} {k : Nat} {u : Thread} (h : (xs ++ t' :: ys)[k]? = some u) :
    (k = xs.length ∧ u = t') ∨ (k ≠ xs.length ∧ (xs ++ t :: ys)[k]? = some u) := by
  by_cases hk : k = xs.length
  · subst hk
    left
    simp at h
    exact ⟨rfl, h.symm⟩
  · right
    refine ⟨hk, ?_⟩
    rw [List.getElem?_append] at h ⊢
    split at h
    · rename_i h1; rw [if_pos h1]; exact h
    · rename_i h1
      rw [if_neg h1]
      have : k - xs.length = (k - xs.length - 1) + 1 := by omega
      rw [this] at h ⊢
      simpa using h

/-- A step that leaves `finished` alone and does not change the calls of the goroutine. -/
theorem order_same {progs : List (List Op)} {xs ys : List Thread} {t t' : Thread} {sh sh' : Shared}
    (h : (xs ++ t :: ys).length = progs.length ∧ ∀ (k : Nat) (u : Thread), (xs ++ t :: ys)[k]? = some u →
      progs[k]? = some ((sh.finished.filter (·.1 == k)).map (·.2) ++ u.now ++ u.todo))
    (hf : sh'.finished = sh.finished) (ht : t'.now ++ t'.todo = t.now ++ t.todo) :
    (xs ++ t' :: ys).length = progs.length ∧ ∀ (k : Nat) (u : Thread), (xs ++ t' :: ys)[k]? = some u →
      progs[k]? = some ((sh'.finished.filter (·.1 == k)).map (·.2) ++ u.now ++ u.todo) := by
  refine ⟨by simpa using h.1, fun k u hu => ?_⟩
  rw [hf]
  rcases set_get (t := t) hu with ⟨rfl, rfl⟩ | ⟨-, h2⟩
  · have := h.2 xs.length t (by simp)
    rw [this, List.append_assoc, List.append_assoc, ht]
  · exact h.2 k u h2

theorem mem_replace {xs ys : List Thread} {t t' : Thread} (h : ∀ u ∈ xs ++ t :: ys, At u) (h' : At t') :
    ∀ u ∈ xs ++ t' :: ys, At u := by
  intro u hu
  simp only [List.mem_append, List.mem_cons] at hu h
  rcases hu with hu | rfl | hu
  · exact h u (.inl hu)
  · exact h'
  · exact h u (.inr (.inr hu))

theorem inv_step {progs : List (List Op)} {s s' : State} (hi : Inv progs s) (h : Step s s') : Inv progs s' := by
  obtain ⟨xs, ys, t, t', sh, sh', hl⟩ := h
  have ha := hi.at_
  have hh := hi.held
  have hd := hi.data
  have ho := hi.order
  have hat : At t := ha t (by simp)
  simp only [nH_split, pend_split] at hh hd
  have hx : ∀ u ∈ xs, At u := fun u hu => ha u (by simp [hu])
  have hy : ∀ u ∈ ys, At u := fun u hu => ha u (by simp [hu])
  cases hl
  case begin op ops =>
    have e1 : (⟨some (op, op.body), ops⟩ : Thread).holds = false := by cases op <;> rfl
    have e2 : (⟨some (op, op.body), ops⟩ : Thread).pending = [] := by cases op <;> rfl
    refine ⟨mem_replace ha (.entry op ops), ?_, ?_, order_same ho rfl rfl⟩
    · rw [nH_split, e1]; exact hh
    · rw [pend_split, e2]; exact hd
  case lock op c ops hf =>
    have hz : nH xs = 0 ∧ nH ys = 0 ∧ (⟨some (op, .lock :: c), ops⟩ : Thread).holds = false := by
      simp only [hf] at hh
      refine ⟨by simp at hh; omega, by simp at hh; omega, ?_⟩
      cases hq : (⟨some (op, .lock :: c), ops⟩ : Thread).holds with
      | false => rfl
      | true => rw [hq] at hh; simp at hh
    generalize hq : (⟨some (op, Instr.lock :: c), ops⟩ : Thread) = q at *
    cases hat with
    | idle => cases hq
    | inner l => cases hq; simp [Thread.holds, setLogger] at hz
    | inside op i _ h2 => cases hq; cases op <;> simp [Op.body, setLogger] at h2
    | exit => cases hq
    | entry op' ops' =>
      have h0 : op' = op ∧ op'.body = .lock :: c ∧ ops = ops' := by
        simp only [Thread.mk.injEq, Option.some.injEq, Prod.mk.injEq] at hq
        exact ⟨hq.1.1.symm, hq.1.2.symm, hq.2⟩
      obtain ⟨rfl, h3, rfl⟩ := h0
      have key : At ⟨some (op', c), ops⟩ ∧ (⟨some (op', c), ops⟩ : Thread).holds = true ∧ (⟨some (op', c), ops⟩ : Thread).pending = [] := by
        cases op' <;> simp only [Op.body, setLogger, List.cons.injEq, true_and, List.cons_append, List.nil_append] at h3 <;> subst h3
        · exact ⟨.inside _ _ _ rfl, rfl, rfl⟩
        · exact ⟨.inner _ _, rfl, rfl⟩
        · exact ⟨.inside _ _ _ rfl, rfl, rfl⟩
        · exact ⟨.inside _ _ _ rfl, rfl, rfl⟩
      have e3 : (⟨some (op', op'.body), ops⟩ : Thread).pending = [] := by cases op' <;> rfl
      refine ⟨mem_replace ha key.1, ?_, ?_, order_same ho rfl rfl⟩
      · rw [nH_split, key.2.1, hz.1, hz.2.1]; rfl
      · rw [pend_split, key.2.2]
        rw [e3] at hd
        exact hd
  case unlock op i c ops =>
    generalize hq : (⟨some (op, Instr.unlock :: i :: c), ops⟩ : Thread) = q at *
    cases hat with
    | idle => cases hq
    | inner l => cases hq
    | inside op i _ h2 => cases hq; cases op <;> simp [Op.body, setLogger] at h2
    | exit => cases hq
    | entry op' ops' =>
      simp only [Thread.mk.injEq, Option.some.injEq, Prod.mk.injEq] at hq
      have := hq.1.2
      cases op' <;> simp [Op.body, setLogger] at this
  case «return» op ops =>
    generalize hq : (⟨some (op, [Instr.unlock]), ops⟩ : Thread) = q at *
    have hb : ∃ i, op.body = [.lock, i, .unlock] := by
      cases hat with
      | idle => cases hq
      | inner l => cases hq
      | inside op i _ h2 => cases hq
      | exit _ i _ h2 => cases hq; exact ⟨i, h2⟩
      | entry op' ops' =>
        simp only [Thread.mk.injEq, Option.some.injEq, Prod.mk.injEq] at hq
        have := hq.1.2
        cases op' <;> simp [Op.body, setLogger] at this
    subst hq
    have e1 : (⟨some (op, [.unlock]), ops⟩ : Thread).holds = true := by
      obtain ⟨i, hb⟩ := hb
      cases op <;> first | rfl | (simp [Op.body, setLogger] at hb)
    rw [e1] at hh
    have hz : nH xs = 0 ∧ nH ys = 0 := by
      simp only [Bool.toNat_true] at hh
      split at hh <;> omega
    have p1 := pend_of_not_held xs hx hz.1
    have p2 := pend_of_not_held ys hy hz.2
    refine ⟨mem_replace ha (.idle ops), ?_, ?_, ?_⟩
    · rw [nH_split, hz.1, hz.2]; rfl
    · rw [pend_split, p1, p2]
      rw [p1, p2] at hd
      rw [hd]
      simp [Thread.pending]
    · refine ⟨by simpa using ho.1, fun k u hu => ?_⟩
      simp only [List.filter_append, List.map_append]
      rcases set_get (t := ⟨some (op, [.unlock]), ops⟩) hu with ⟨rfl, rfl⟩ | ⟨h1, h2⟩
      · have := ho.2 xs.length ⟨some (op, [.unlock]), ops⟩ (by simp)
        rw [this]
        simp [Thread.now]
      · have := ho.2 k u h2
        rw [this]
        have e : ([(xs.length, op)] : List (Nat × Op)).filter (fun x => x.1 == k) = [] := by
          have : (xs.length == k) = false := by simpa using fun h => h1 h.symm
          simp [this]
        rw [e]
        simp
  case act i op c ops hs =>
    generalize hq : (⟨some (op, i :: c), ops⟩ : Thread) = q at *
    have hb : op.body = [.lock, i, .unlock] ∧ c = [.unlock] := by
      cases hat with
      | idle => cases hq
      | inner l => cases hq; simp [Instr.access] at hs
      | inside op i _ h2 => cases hq; exact ⟨h2, rfl⟩
      | exit => cases hq; simp [Instr.access] at hs
      | entry op' ops' =>
        simp only [Thread.mk.injEq, Option.some.injEq, Prod.mk.injEq] at hq
        have h3 := hq.1.2
        cases op' <;> simp only [Op.body, setLogger, List.cons_append, List.cons.injEq] at h3 <;> rw [h3.1] at hs <;>
          simp [Instr.access] at hs
    subst hq
    obtain ⟨hb, rfl⟩ := hb
    have e0 : (⟨some (op, [i, .unlock]), ops⟩ : Thread).holds = true ∧ (⟨some (op, [.unlock]), ops⟩ : Thread).holds = true := by
      cases op <;> first | exact ⟨rfl, rfl⟩ | (simp [Op.body, setLogger] at hb)
    rw [e0.1] at hh
    have hz : nH xs = 0 ∧ nH ys = 0 := by
      simp only [Bool.toNat_true] at hh
      split at hh <;> omega
    have p1 := pend_of_not_held xs hx hz.1
    have p2 := pend_of_not_held ys hy hz.2
    have p3 : (⟨some (op, [i, .unlock]), ops⟩ : Thread).pending = [] := by cases i <;> first | rfl
    refine ⟨mem_replace ha (.exit op i ops hb), ?_, ?_, order_same ho rfl rfl⟩
    · rw [nH_split, e0.2]; exact hh
    · rw [pend_split, p1, p2]
      rw [p1, p2, p3] at hd
      simp only [List.append_nil] at hd
      simp only [hd, Thread.pending, List.nil_append, List.append_nil, List.foldl_append, List.foldl_cons, List.foldl_nil, Op.run, hb]
      rfl

theorem inv_reach {progs : List (List Op)} {s : State} (h : Reach progs s) : Inv progs s := by
  unfold Reach at h
  generalize hs : start progs = s0 at h
  induction h with
  | refl => subst hs; exact inv_start progs
  | tail _ h2 ih => exact inv_step ih h2

end Log
end Pfcp
