/-
The order of elements: two sequences that differ only in how elements of different types are arranged. Definitions and helper
lemmas for `Verif/Message/OrderProps.lean`.
-/
import Verif.Acc.Groups
import Verif.Message.Props

namespace Pfcp

/-- `ys` is `xs` with neighbours of different types exchanged, any number of times (not part of the Go code). -/
inductive Reorder : List IE → List IE → Prop
  | refl (xs : List IE) : Reorder xs xs
  | swap (pre post : List IE) (a b : IE) (h : a.typ ≠ b.typ) : Reorder (pre ++ a :: b :: post) (pre ++ b :: a :: post)
  | trans {xs ys zs : List IE} : Reorder xs ys → Reorder ys zs → Reorder xs zs

namespace Reorder

theorem symm {xs ys : List IE} (h : Reorder xs ys) : Reorder ys xs := by
  induction h with
  | refl xs => exact .refl xs
  | swap pre post a b h => exact .swap pre post b a h.symm
  | trans _ _ ih1 ih2 => exact .trans ih2 ih1

theorem cons (x : IE) {xs ys : List IE} (h : Reorder xs ys) : Reorder (x :: xs) (x :: ys) := by
  induction h with
  | refl xs => exact .refl _
  | swap pre post a b h => exact .swap (x :: pre) post a b h
  | trans _ _ ih1 ih2 => exact .trans ih1 ih2

/-- An element can be moved in front of elements of other types. -/
theorem front (x : IE) (pre post : List IE) (h : ∀ y ∈ pre, y.typ ≠ x.typ) :
    Reorder (pre ++ x :: post) (x :: (pre ++ post)) := by
  induction pre with
  | nil => exact .refl _
  | cons y pre ih =>
    refine .trans (.cons y (ih fun z hz => h z (List.mem_cons_of_mem _ hz))) ?_
    exact .swap [] (pre ++ post) y x (h y List.mem_cons_self)

theorem filter_eq {xs ys : List IE} (h : Reorder xs ys) (t : IEType) :
    xs.filter (fun i => decide (i.typ = t)) = ys.filter (fun i => decide (i.typ = t)) := by
  induction h with
  | refl xs => rfl
  | swap pre post a b h =>
    simp only [List.filter_append, List.filter_cons]
    congr 1
    by_cases ha : a.typ = t <;> by_cases hb : b.typ = t <;> simp [ha, hb]
    exact absurd (ha.trans hb.symm) h
  | trans _ _ ih1 ih2 => exact ih1.trans ih2

theorem perm {xs ys : List IE} (h : Reorder xs ys) : xs.Perm ys := by
  induction h with
  | refl xs => exact .refl _
  | swap pre post a b h => exact .append_left pre (.swap b a post)
  | trans _ _ ih1 ih2 => exact ih1.trans ih2

theorem mem {xs ys : List IE} (h : Reorder xs ys) (i : IE) : i ∈ xs ↔ i ∈ ys := h.perm.mem_iff

/-- Keeping some elements of each sequence, chosen by type. -/
theorem filter (p : IEType → Bool) {xs ys : List IE} (h : Reorder xs ys) :
    Reorder (xs.filter fun i => p i.typ) (ys.filter fun i => p i.typ) := by
  induction h with
  | refl xs => exact .refl _
  | swap pre post a b h =>
    simp only [List.filter_append, List.filter_cons]
    cases p a.typ <;> cases p b.typ <;> simp only [Bool.false_eq_true, if_false, if_true]
    · exact .refl _
    · exact .refl _
    · exact .refl _
    · exact .swap _ _ _ _ h
  | trans _ _ ih1 ih2 => exact .trans ih1 ih2

theorem enc_length (g : IEType → Bool) {xs ys : List IE} (h : Reorder xs ys) :
    (encList g xs).length = (encList g ys).length := by
  induction h with
  | refl xs => rfl
  | swap pre post a b h =>
    simp only [encList_append, encList, List.length_append]
    omega
  | trans _ _ ih1 ih2 => exact ih1.trans ih2

/-- The first element of a given type. -/
theorem find_eq {xs ys : List IE} (h : Reorder xs ys) (l : List IEType) (hl : ∀ u ∈ l, ∀ v ∈ l, u = v) :
    xs.find? (fun c => l.contains c.typ) = ys.find? (fun c => l.contains c.typ) := by
  cases l with
  | nil =>
    have e : ∀ zs : List IE, zs.find? (fun c => ([] : List IEType).contains c.typ) = none := fun zs => by simp
    rw [e, e]
  | cons u l =>
    have e : (fun c : IE => (u :: l).contains c.typ) = fun c => decide (c.typ = u) := by
      funext c
      rw [Bool.eq_iff_iff]
      simp only [List.contains_iff_mem, decide_eq_true_eq]
      constructor
      · intro hc; exact hl _ hc _ List.mem_cons_self
      · intro hc; rw [hc]; exact List.mem_cons_self
    rw [e, ← List.head?_filter, ← List.head?_filter, h.filter_eq u]

end Reorder

/-- `j` is `i` with children of different types exchanged, at up to `n` levels (not part of the Go code). -/
def Shuffled (g : IEType → Bool) : Nat → IE → IE → Prop
  | 0, i, j => i = j
  | n + 1, i, j => i = j ∨ (g i.typ = true ∧ i.typ = j.typ ∧ i.payload.length = j.payload.length ∧
      ∃ cs es ds, parseMulti g i.payload = .ok cs ∧ parseMulti g j.payload = .ok ds ∧ Reorder cs es ∧
        es.length = ds.length ∧ ∀ (k : Nat) c d, es[k]? = some c → ds[k]? = some d → Shuffled g n c d)

theorem Shuffled.typ {g : IEType → Bool} : ∀ {n : Nat} {i j : IE}, Shuffled g n i j → i.typ = j.typ
  | 0, i, j, h => by rw [show i = j from h]
  | _ + 1, _, _, h => by
    rcases h with h | ⟨_, h, _⟩
    · rw [h]
    · exact h

theorem Shuffled.plain {g : IEType → Bool} {n : Nat} {i j : IE} (h : Shuffled g n i j) (hg : g i.typ = false) : i = j := by
  cases n with
  | zero => exact h
  | succ n =>
    rcases h with h | ⟨h, _⟩
    · exact h
    · rw [hg] at h; cases h

/-- The first elements that satisfy a condition, in two sequences of related elements. -/
theorem find_pair {R : IE → IE → Prop} (p : IE → Bool) (hp : ∀ c d, R c d → p c = p d) :
    ∀ (es ds : List IE), es.length = ds.length → (∀ (k : Nat) c d, es[k]? = some c → ds[k]? = some d → R c d) →
      (es.find? p = none ∧ ds.find? p = none) ∨ ∃ c d, es.find? p = some c ∧ ds.find? p = some d ∧ R c d
  | [], [], _, _ => .inl ⟨rfl, rfl⟩
  | [], _ :: _, h, _ => by simp at h
  | _ :: _, [], h, _ => by simp at h
  | e :: es, d :: ds, h, hr => by
    have h0 := hr 0 e d rfl rfl
    rw [List.find?_cons, List.find?_cons, ← hp e d h0]
    cases p e with
    | true => exact .inr ⟨e, d, rfl, rfl, h0⟩
    | false => exact find_pair p hp es ds (by simpa using h) fun k c d hc hd => hr (k + 1) c d hc hd

end Pfcp
