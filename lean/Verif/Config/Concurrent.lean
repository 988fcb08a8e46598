/-
Concurrent model of the grouped-type configuration, /repo/ie/ie_grouped.go:8-133: any number of goroutines,
each running any sequence of `IsGrouped`, `AddGroupedIEType`, `SetIsGroupedFun` calls, interleaved one
shared-memory access or lock operation at a time.

`sync.RWMutex` is modelled after its documentation: `Lock` first announces the writer (only one at a time),
which keeps new readers out, then waits until the readers that are inside have left; `RLock` waits while a writer
is announced or inside. The installed user functions are pure.
-/
import Verif.Config.Model

namespace Pfcp
namespace Concurrent

/-- A call made by a goroutine. -/
inductive Op where
  | isGrouped (t : IEType)
  | add (ts : List IEType)
  | set (f : IEType → Bool)

/-- Where a goroutine is within its current call. -/
inductive PC where
  /-- between calls -/
  | idle
  /-- `IsGrouped`, about to read the variable `isGroupedFun`, /repo/ie/ie_grouped.go:132 -/
  | loadFun (t : IEType)
  /-- initial closure, about to `mu.RLock()`, :100 -/
  | rlock (t : IEType)
  /-- initial closure, about to read the map, :102 -/
  | readMap (t : IEType)
  /-- initial closure, about to `mu.RUnlock()`, :101 -/
  | runlock
  /-- `AddGroupedIEType`, about to `mu.Lock()`, :118 -/
  | addLock (ts : List IEType)
  /-- inside `mu.Lock()`, announced -/
  | addWait (ts : List IEType)
  /-- loop of `AddGroupedIEType`, :120-122: written so far, still to write -/
  | adding (done todo : List IEType)
  /-- `SetIsGroupedFun`, about to `mu.Lock()`, :109 -/
  | setLock (f : IEType → Bool)
  | setWait (f : IEType → Bool)
  /-- about to write `isGroupedFun`, :111 -/
  | storeFun (f : IEType → Bool)
  /-- about to `mu.Unlock()`, :110 -/
  | setUnlock

/-- A goroutine: current position and calls still to make. -/
structure Thread where
  pc : PC
  todo : List Op

/-- Shared state. `announced`: a writer is announced or inside. `writer`: a writer is inside. `readers`: number
of readers inside. `finished` is a ghost: the completed `AddGroupedIEType` calls. -/
structure Shared where
  announced : Bool
  writer : Bool
  readers : Nat
  keys : List IEType
  fn : Option (IEType → Bool)
  finished : List (List IEType)

structure State where
  threads : List Thread
  sh : Shared

/-- The starting position of a call. -/
def Op.start : Op → PC
  | .isGrouped t => .loadFun t
  | .add ts => .addLock ts
  | .set f => .setLock f

/-- One step of a goroutine, together with its effect on the shared state. -/
inductive Local : Thread → Shared → Thread → Shared → Prop
  | begin (op ops s) : Local ⟨.idle, op :: ops⟩ s ⟨op.start, ops⟩ s
  | loadUser (t ops s f) : s.fn = some f → Local ⟨.loadFun t, ops⟩ s ⟨.idle, ops⟩ s
  | loadInitial (t ops s) : s.fn = none → Local ⟨.loadFun t, ops⟩ s ⟨.rlock t, ops⟩ s
  | rlock (t ops s) : s.announced = false →
      Local ⟨.rlock t, ops⟩ s ⟨.readMap t, ops⟩ { s with readers := s.readers + 1 }
  | readMap (t ops s) : Local ⟨.readMap t, ops⟩ s ⟨.runlock, ops⟩ s
  | runlock (ops s) : Local ⟨.runlock, ops⟩ s ⟨.idle, ops⟩ { s with readers := s.readers - 1 }
  | addAnnounce (ts ops s) : s.announced = false →
      Local ⟨.addLock ts, ops⟩ s ⟨.addWait ts, ops⟩ { s with announced := true }
  | addEnter (ts ops s) : s.readers = 0 →
      Local ⟨.addWait ts, ops⟩ s ⟨.adding [] ts, ops⟩ { s with writer := true }
  | addWrite (d t ts ops s) :
      Local ⟨.adding d (t :: ts), ops⟩ s ⟨.adding (d ++ [t]) ts, ops⟩ { s with keys := s.keys ++ [t] }
  | addUnlock (d ops s) :
      Local ⟨.adding d [], ops⟩ s ⟨.idle, ops⟩
        { s with announced := false, writer := false, finished := s.finished ++ [d] }
  | setAnnounce (f ops s) : s.announced = false →
      Local ⟨.setLock f, ops⟩ s ⟨.setWait f, ops⟩ { s with announced := true }
  | setEnter (f ops s) : s.readers = 0 →
      Local ⟨.setWait f, ops⟩ s ⟨.storeFun f, ops⟩ { s with writer := true }
  | setStore (f ops s) : Local ⟨.storeFun f, ops⟩ s ⟨.setUnlock, ops⟩ { s with fn := some f }
  | setUnlock (ops s) :
      Local ⟨.setUnlock, ops⟩ s ⟨.idle, ops⟩ { s with announced := false, writer := false }

/-- One step of the program: some goroutine moves. -/
inductive Step : State → State → Prop
  | mk (xs ys t t' s s') : Local t s t' s' → Step ⟨xs ++ t :: ys, s⟩ ⟨xs ++ t' :: ys, s'⟩

/-- Reachable from the start of a program whose goroutines make the given calls. -/
inductive Reach (progs : List (List Op)) : State → Prop
  | start : Reach progs ⟨progs.map (⟨.idle, ·⟩), ⟨false, false, 0, defaultGroupedTypes, none, []⟩⟩
  | step {s s'} : Reach progs s → Step s s' → Reach progs s'

/-! ### Specification of data races -/

inductive Var where
  | fn
  | keys
  deriving DecidableEq

/-- The shared variable the goroutine's next step touches, and whether it writes. -/
def nextAccess (t : Thread) : Option (Var × Bool) :=
  match t.pc with
  | .loadFun _ => some (.fn, false)
  | .readMap _ => some (.keys, false)
  | .adding _ (_ :: _) => some (.keys, true)
  | .storeFun _ => some (.fn, true)
  | _ => none

/-- Two goroutines are about to touch variable `v`, at least one of them writing. -/
def Race (v : Var) (s : State) : Prop :=
  ∃ xs t ys u zs w w', s.threads = xs ++ t :: ys ++ u :: zs ∧
    nextAccess t = some (v, w) ∧ nextAccess u = some (v, w') ∧ (w = true ∨ w' = true)

/-! ### Invariant -/

def PC.inR : PC → Bool
  | .readMap _ | .runlock => true
  | _ => false

def PC.inW : PC → Bool
  | .adding _ _ | .storeFun _ | .setUnlock => true
  | _ => false

def PC.waiting : PC → Bool
  | .addWait _ | .setWait _ => true
  | _ => false

/-- What the goroutine inside `AddGroupedIEType` has written so far. -/
def PC.written : PC → List IEType
  | .adding d _ => d
  | _ => []

def nR (ts : List Thread) : Nat := ts.countP fun t => t.pc.inR
def nW (ts : List Thread) : Nat := ts.countP fun t => t.pc.inW
def nA (ts : List Thread) : Nat := ts.countP fun t => t.pc.inW || t.pc.waiting

/-- What the goroutines inside `AddGroupedIEType` have written. -/
def wr (ts : List Thread) : List IEType := ts.flatMap fun t => t.pc.written

structure Inv (s : State) : Prop where
  readers : nR s.threads = s.sh.readers
  writers : nW s.threads = if s.sh.writer then 1 else 0
  announced : nA s.threads = if s.sh.announced then 1 else 0
  excl : s.sh.writer = true → s.sh.readers = 0
  keys : s.sh.keys = defaultGroupedTypes ++ s.sh.finished.flatten
    ++ wr s.threads

theorem nR_split (xs ys : List Thread) (p : PC) (o : List Op) :
    nR (xs ++ ⟨p, o⟩ :: ys) = nR xs + p.inR.toNat + nR ys := by
  unfold nR; rw [List.countP_append, List.countP_cons]; cases p.inR <;> simp <;> omega

theorem nW_split (xs ys : List Thread) (p : PC) (o : List Op) :
    nW (xs ++ ⟨p, o⟩ :: ys) = nW xs + p.inW.toNat + nW ys := by
  unfold nW; rw [List.countP_append, List.countP_cons]; cases p.inW <;> simp <;> omega

theorem nA_split (xs ys : List Thread) (p : PC) (o : List Op) :
    nA (xs ++ ⟨p, o⟩ :: ys) = nA xs + (p.inW || p.waiting).toNat + nA ys := by
  unfold nA; rw [List.countP_append, List.countP_cons]; cases (p.inW || p.waiting) <;> simp <;> omega

theorem wr_split (xs ys : List Thread) (p : PC) (o : List Op) :
    wr (xs ++ ⟨p, o⟩ :: ys) = wr xs ++ p.written ++ wr ys := by
  unfold wr; simp

theorem countP_le_of_imp {α : Type} (p q : α → Bool) (l : List α) (h : ∀ a, p a = true → q a = true) :
    l.countP p ≤ l.countP q := by
  induction l with
  | nil => simp
  | cons a l ih =>
    rw [List.countP_cons, List.countP_cons]
    have := h a
    cases hp : p a <;> cases hq : q a <;> simp_all <;> omega

theorem nW_le_nA (ts : List Thread) : nW ts ≤ nA ts :=
  countP_le_of_imp _ _ _ (fun t h => by simp [h])

theorem written_nil (ts : List Thread) (h : nW ts = 0) : wr ts = [] := by
  unfold wr
  rw [List.flatMap_eq_nil_iff]
  intro t ht
  have := List.countP_eq_zero.1 h t ht
  cases hp : t.pc <;> simp [hp, PC.inW, PC.written] at this ⊢

theorem inv_start (progs : List (List Op)) :
    Inv ⟨progs.map (⟨.idle, ·⟩), ⟨false, false, 0, defaultGroupedTypes, none, []⟩⟩ := by
  constructor <;> simp [nR, nW, nA, List.countP_map, Function.comp_def, PC.inR, PC.inW, PC.waiting,
    wr, List.flatMap_map, PC.written]

theorem inv_step {s s' : State} (hi : Inv s) (h : Step s s') : Inv s' := by
  obtain ⟨xs, ys, ⟨p, o⟩, ⟨p', o'⟩, sh, sh', hl⟩ := h
  have hr := hi.readers
  have hw := hi.writers
  have ha := hi.announced
  have he := hi.excl
  have hk := hi.keys
  simp only [nR_split, nW_split, nA_split, wr_split] at hr hw ha hk
  cases hl
  case begin op =>
    constructor
    all_goals simp only [nR_split, nW_split, nA_split, wr_split]
    · cases op <;> simpa [Op.start, PC.inR] using hr
    · cases op <;> simpa [Op.start, PC.inW] using hw
    · cases op <;> simpa [Op.start, PC.inW, PC.waiting] using ha
    · exact he
    · cases op <;> simpa [Op.start, PC.written] using hk
  case addWrite d u ts =>
    simp only [PC.inW, PC.inR, PC.waiting, PC.written, Bool.or_false, Bool.toNat_true, Bool.toNat_false] at hr hw ha hk
    have hz : nW xs = 0 ∧ nW ys = 0 := by
      split at hw <;> omega
    have hx := written_nil xs hz.1
    have hy := written_nil ys hz.2
    constructor
    all_goals simp only [nR_split, nW_split, nA_split, wr_split, PC.inW, PC.inR, PC.waiting, PC.written, Bool.or_false, Bool.toNat_true, Bool.toNat_false]
    · exact hr
    · exact hw
    · exact ha
    · exact he
    · rw [hk, hx, hy]; simp
  case addUnlock d =>
    simp only [PC.inW, PC.inR, PC.waiting, PC.written, Bool.or_false, Bool.toNat_true, Bool.toNat_false] at hr hw ha hk
    have hz : nW xs = 0 ∧ nW ys = 0 := by
      split at hw <;> omega
    have hz' : nA xs = 0 ∧
        nA ys = 0 := by
      split at ha <;> omega
    have hx := written_nil xs hz.1
    have hy := written_nil ys hz.2
    constructor
    all_goals simp only [nR_split, nW_split, nA_split, wr_split, PC.inW, PC.inR, PC.waiting, PC.written]
    · exact hr
    · simp [hz.1, hz.2]
    · simp [hz'.1, hz'.2]
    · intro h; cases h
    · rw [hk, hx, hy]; simp
  case setUnlock =>
    simp only [PC.inW, PC.inR, PC.waiting, PC.written, Bool.or_false, Bool.toNat_true, Bool.toNat_false] at hr hw ha hk
    have hz : nW xs = 0 ∧ nW ys = 0 := by
      split at hw <;> omega
    have hz' : nA xs = 0 ∧
        nA ys = 0 := by
      split at ha <;> omega
    constructor
    all_goals simp only [nR_split, nW_split, nA_split, wr_split, PC.inW, PC.inR, PC.waiting, PC.written]
    · exact hr
    · simp [hz.1, hz.2]
    · simp [hz'.1, hz'.2]
    · intro h; cases h
    · exact hk
  case rlock t hann =>
    simp only [PC.inW, PC.inR, PC.waiting, PC.written, Bool.or_false] at hr hw ha hk
    have hnw : sh.writer = false := by
      have h1 := nW_le_nA (xs ++ ⟨.rlock t, o⟩ :: ys)
      rw [hi.writers, hi.announced] at h1
      simp only [hann] at h1
      cases hwr : sh.writer with
      | false => rfl
      | true => simp [hwr] at h1
    constructor
    all_goals simp only [nR_split, nW_split, nA_split, wr_split, PC.inW, PC.inR, PC.waiting, PC.written, Bool.or_false, Bool.toNat_true, Bool.toNat_false]
    · simp at hr ⊢; omega
    · exact hw
    · exact ha
    · intro h; rw [hnw] at h; cases h
    · exact hk
  case runlock =>
    simp only [PC.inW, PC.inR, PC.waiting, PC.written, Bool.or_false, Bool.toNat_true, Bool.toNat_false] at hr hw ha hk
    constructor
    all_goals simp only [nR_split, nW_split, nA_split, wr_split, PC.inW, PC.inR, PC.waiting, PC.written, Bool.or_false]
    · simp at hr ⊢; omega
    · exact hw
    · exact ha
    · intro h; have := he h; simp only at this; omega
    · exact hk
  case addEnter ts hrd =>
    simp only [PC.inW, PC.inR, PC.waiting, PC.written, Bool.false_or, Bool.toNat_true, Bool.toNat_false] at hr hw ha hk
    have hz' : nA xs = 0 ∧
        nA ys = 0 := by
      split at ha <;> omega
    have h1 := nW_le_nA xs
    have h2 := nW_le_nA ys
    simp only [hz'.1, hz'.2] at h1 h2
    constructor
    all_goals simp only [nR_split, nW_split, nA_split, wr_split, PC.inW, PC.inR, PC.waiting, PC.written, Bool.or_false, Bool.toNat_true, Bool.toNat_false]
    · exact hr
    · simp; omega
    · exact ha
    · intro _; exact hrd
    · exact hk
  case setEnter f hrd =>
    simp only [PC.inW, PC.inR, PC.waiting, PC.written, Bool.false_or, Bool.toNat_true, Bool.toNat_false] at hr hw ha hk
    have hz' : nA xs = 0 ∧
        nA ys = 0 := by
      split at ha <;> omega
    have h1 := nW_le_nA xs
    have h2 := nW_le_nA ys
    simp only [hz'.1, hz'.2] at h1 h2
    constructor
    all_goals simp only [nR_split, nW_split, nA_split, wr_split, PC.inW, PC.inR, PC.waiting, PC.written, Bool.or_false, Bool.toNat_true, Bool.toNat_false]
    · exact hr
    · simp; omega
    · exact ha
    · intro _; exact hrd
    · exact hk
  case addAnnounce ts hann =>
    simp only [PC.inW, PC.inR, PC.waiting, PC.written, hann] at hr hw ha hk
    constructor
    all_goals simp only [nR_split, nW_split, nA_split, wr_split, PC.inW, PC.inR, PC.waiting, PC.written]
    · exact hr
    · exact hw
    · simp at ha ⊢; omega
    · exact he
    · exact hk
  case setAnnounce f hann =>
    simp only [PC.inW, PC.inR, PC.waiting, PC.written, hann] at hr hw ha hk
    constructor
    all_goals simp only [nR_split, nW_split, nA_split, wr_split, PC.inW, PC.inR, PC.waiting, PC.written]
    · exact hr
    · exact hw
    · simp at ha ⊢; omega
    · exact he
    · exact hk
  all_goals
    constructor
    all_goals simp only [nR_split, nW_split, nA_split, wr_split, PC.inW, PC.inR, PC.waiting, PC.written] at hr hw ha hk ⊢
    · exact hr
    · exact hw
    · exact ha
    · exact he
    · exact hk

theorem inv_reach {progs : List (List Op)} {s : State} (h : Reach progs s) : Inv s := by
  induction h with
  | start => exact inv_start progs
  | step _ hs ih => exact inv_step ih hs

end Concurrent
end Pfcp
