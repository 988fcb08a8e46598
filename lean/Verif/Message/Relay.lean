/-
Relaying: what a program that decodes a datagram and encodes the message again sends, compared octet by octet
with what it received (C92). Nothing here is part of the Go code but `parse` and `marshal`.
-/
import Verif.Message.Stable

namespace Pfcp

variable (g : IEType → Bool)

/-- Where the elements of type `t` stand in a message of kind `k` as encoded: the number of the field they
belong to, in the order of the struct (which is the order of every `MarshalTo`, see
Verif/Message/TableFacts.lean); elements without a field come after all others. -/
def place (k : Kind) (t : IEType) : List FieldName → Nat
  | [] => 0
  | n :: ns => if t = fieldIE k n then 0 else place k t ns + 1

/-- Elements in the order in which they are encoded. -/
def InPlace (k : Kind) (xs : List IE) : Prop :=
  xs.Pairwise fun a b => place k a.typ k.names ≤ place k b.typ k.names

/-- No element of a pointer field occurs twice. -/
def Once (k : Kind) (xs : List IE) : Prop :=
  ∀ n, (n, Card.one) ∈ k.tab.fields → (xs.filter fun i => decide (i.typ = fieldIE k n)).length ≤ 1

/-! ### Sorting by place -/

/-- A sequence in which everything that satisfies `p` comes first. -/
theorem first_part {α : Type} (p : α → Bool) (xs : List α)
    (h : xs.Pairwise fun a b => p b = true → p a = true) :
    xs = xs.filter p ++ xs.filter fun x => !p x := by
  induction xs with
  | nil => rfl
  | cons x xs ih =>
    rw [List.pairwise_cons] at h
    by_cases hx : p x = true
    · have := ih h.2
      simp only [List.filter_cons, hx, if_true, Bool.not_true, List.cons_append]
      rw [if_neg (by simp), ← this]
    · have hn : ∀ y ∈ xs, ¬ p y = true := fun y hy hp => hx (h.1 y hy hp)
      have e1 : (x :: xs).filter p = [] := by
        rw [List.filter_eq_nil_iff]
        intro y hy
        rcases List.mem_cons.1 hy with rfl | hy
        · exact hx
        · exact hn y hy
      have e2 : (x :: xs).filter (fun x => !p x) = x :: xs := by
        rw [List.filter_eq_self]
        intro y hy
        rcases List.mem_cons.1 hy with rfl | hy
        · simpa using hx
        · simpa using hn y hy
      rw [e1, e2, List.nil_append]

/-- A sequence ordered by place is the concatenation of its parts. -/
theorem sorted_parts (k : Kind) : (ns : List FieldName) → (ns.map (fieldIE k)).Nodup → (xs : List IE) →
    (xs.Pairwise fun a b => place k a.typ ns ≤ place k b.typ ns) →
    xs = (ns.flatMap fun n => xs.filter fun i => decide (i.typ = fieldIE k n)) ++
      xs.filter fun i => decide (∀ n ∈ ns, i.typ ≠ fieldIE k n)
  | [], _, xs, _ => by
    have : xs.filter (fun i => decide (∀ n ∈ ([] : List FieldName), i.typ ≠ fieldIE k n)) = xs := by
      rw [List.filter_eq_self]; simp
    rw [this]; rfl
  | n :: ns, hd, xs, hs => by
    rw [List.map_cons, List.nodup_cons] at hd
    have h1 := first_part (fun i : IE => decide (i.typ = fieldIE k n)) xs (by
      refine hs.imp ?_
      intro a b hab hb
      simp only [decide_eq_true_eq] at hb ⊢
      simp only [place, hb, if_true] at hab
      by_cases ha : a.typ = fieldIE k n
      · exact ha
      · rw [if_neg ha] at hab; omega)
    have hsub := sorted_parts k ns hd.2 (xs.filter fun i => !decide (i.typ = fieldIE k n)) (by
      have hs' := hs.filter (fun i => !decide (i.typ = fieldIE k n))
      refine hs'.imp_of_mem ?_
      intro a b ha hb hab
      have ha := (List.mem_filter.1 ha).2
      have hb := (List.mem_filter.1 hb).2
      simp only [Bool.not_eq_true', decide_eq_false_iff_not] at ha hb
      simp only [place, ha, hb, if_false] at hab
      omega)
    have e1 : ∀ m ∈ ns, (xs.filter fun i => !decide (i.typ = fieldIE k n)).filter
        (fun i => decide (i.typ = fieldIE k m)) = xs.filter fun i => decide (i.typ = fieldIE k m) := by
      intro m hm
      rw [List.filter_filter]
      apply List.filter_congr
      intro i _
      by_cases hi : i.typ = fieldIE k m
      · have : fieldIE k m ≠ fieldIE k n := fun e => hd.1 (e ▸ List.mem_map.2 ⟨m, hm, rfl⟩)
        simp [hi, this]
      · simp [hi]
    have e2 : ∀ l : List FieldName, (∀ m ∈ l, m ∈ ns) →
        (l.flatMap fun m => (xs.filter fun i => !decide (i.typ = fieldIE k n)).filter
          fun i => decide (i.typ = fieldIE k m)) =
        l.flatMap fun m => xs.filter fun i => decide (i.typ = fieldIE k m) := by
      intro l
      induction l with
      | nil => intro _; rfl
      | cons a l ih =>
        intro hl
        simp only [List.flatMap_cons]
        rw [e1 a (hl a (by simp)), ih (fun m hm => hl m (by simp [hm]))]
    have e3 : (xs.filter fun i => !decide (i.typ = fieldIE k n)).filter
        (fun i => decide (∀ m ∈ ns, i.typ ≠ fieldIE k m)) =
        xs.filter fun i => decide (∀ m ∈ n :: ns, i.typ ≠ fieldIE k m) := by
      rw [List.filter_filter]
      apply List.filter_congr
      intro i _
      rw [Bool.eq_iff_iff]
      simp only [Bool.and_eq_true, decide_eq_true_eq, Bool.not_eq_true', decide_eq_false_iff_not,
        List.mem_cons, forall_eq_or_imp]
      exact And.comm
    rw [e2 ns (fun _ h => h), e3] at hsub
    rw [hsub] at h1
    rw [List.flatMap_cons, List.append_assoc]
    exact h1

theorem place_at (k : Kind) (n : FieldName) (post : List FieldName) : (pre : List FieldName) →
    ((pre ++ n :: post).map (fieldIE k)).Nodup → place k (fieldIE k n) (pre ++ n :: post) = pre.length
  | [], _ => by simp [place]
  | a :: pre, hd => by
    simp only [List.cons_append, List.map_cons, List.nodup_cons] at hd
    have hne : fieldIE k n ≠ fieldIE k a := fun e =>
      hd.1 (e ▸ List.mem_map.2 ⟨n, by simp, rfl⟩)
    have := place_at k n post pre hd.2
    simp [place, hne, this]

theorem place_le (k : Kind) (t : IEType) (ns : List FieldName) : place k t ns ≤ ns.length := by
  induction ns with
  | nil => simp [place]
  | cons n ns ih => simp only [place]; split <;> simp <;> omega

theorem place_none (k : Kind) (t : IEType) (ns : List FieldName) (h : ∀ n ∈ ns, t ≠ fieldIE k n) :
    place k t ns = ns.length := by
  induction ns with
  | nil => rfl
  | cons n ns ih =>
    simp only [place]
    rw [if_neg (h n (by simp)), ih (fun m hm => h m (by simp [hm]))]; rfl

/-- Parts put one after the other are ordered by place. -/
theorem parts_sorted (k : Kind) (hd : (k.names.map (fieldIE k)).Nodup) (f : FieldName → List IE)
    (hf : ∀ n, ∀ i ∈ f n, i.typ = fieldIE k n) (rest : List IE)
    (hr : ∀ i ∈ rest, ∀ n ∈ k.names, i.typ ≠ fieldIE k n) :
    ∀ post pre, k.names = pre ++ post →
      ((post.flatMap f ++ rest).Pairwise fun a b => place k a.typ k.names ≤ place k b.typ k.names) ∧
      ∀ i ∈ post.flatMap f ++ rest, pre.length ≤ place k i.typ k.names := by
  intro post
  induction post with
  | nil =>
    intro pre hp
    have hl : ∀ i ∈ rest, place k i.typ k.names = k.names.length :=
      fun i hi => place_none k i.typ _ (hr i hi)
    simp only [List.flatMap_nil, List.nil_append]
    refine ⟨?_, ?_⟩
    · rw [List.pairwise_iff_forall_sublist]
      intro a b hab
      have ha := hl a (hab.subset (by simp))
      have hb := hl b (hab.subset (by simp))
      omega
    · intro i hi
      rw [hl i hi, hp]; simp
  | cons n post ih =>
    intro pre hp
    have hpl := place_at k n post pre (hp ▸ hd)
    rw [← hp] at hpl
    obtain ⟨ih1, ih2⟩ := ih (pre ++ [n]) (by rw [hp]; simp)
    have hn : ∀ i ∈ f n, place k i.typ k.names = pre.length := by
      intro i hi; rw [hf n i hi, hpl]
    rw [List.flatMap_cons, List.append_assoc]
    refine ⟨?_, ?_⟩
    · rw [List.pairwise_append]
      refine ⟨?_, ih1, ?_⟩
      · rw [List.pairwise_iff_forall_sublist]
        intro a b hab
        have ha := hn a (hab.subset (by simp))
        have hb := hn b (hab.subset (by simp))
        omega
      · intro a ha b hb
        have h1 := hn a ha
        have h2 := ih2 b hb
        simp only [List.length_append, List.length_singleton] at h2
        omega
    · intro i hi
      rcases List.mem_append.1 hi with h | h
      · rw [hn i h]; exact Nat.le_refl _
      · have h2 := ih2 i h
        simp only [List.length_append, List.length_singleton] at h2
        omega

/-! ### Octets and elements -/

/-- Two sequences with the same elements of each type, in the same order, and the same octets. -/
theorem enc_same : (xs ys : List IE) → encList g xs = encList g ys →
    (∀ t : IEType, xs.filter (fun i => decide (i.typ = t)) = ys.filter (fun i => decide (i.typ = t))) → xs = ys
  | [], [], _, _ => rfl
  | [], y :: ys, he, _ => by
    have := congrArg List.length he
    have h4 := enc_length_pos g y
    simp only [encList, List.length_nil, List.length_append] at this
    omega
  | x :: xs, [], he, _ => by
    have := congrArg List.length he
    have h4 := enc_length_pos g x
    simp only [encList, List.length_nil, List.length_append] at this
    omega
  | x :: xs, y :: ys, he, hf => by
    have ht : x.typ = y.typ := by
      have hd : ∀ (i : IE) (l : List IE), (encList g (i :: l)).take 2 = be16 i.typ := by
        intro i l
        obtain ⟨t, len, eid, p, cs⟩ := i
        simp only [encList, IE.enc, List.append_assoc]
        exact (encHdr_append t len eid _).1
      have h1 := hd x xs
      rw [he, hd y ys] at h1
      rw [← dec16_be16 x.typ, ← dec16_be16 y.typ, h1]
    have hxy : x = y := by
      have := hf x.typ
      simp only [List.filter_cons, decide_true, if_true, ht] at this
      exact (List.cons.inj this).1
    subst hxy
    have := enc_same xs ys (by simpa [encList] using he) (by
      intro t
      have := hf t
      by_cases h : x.typ = t
      · simpa [List.filter_cons, h] using this
      · simpa [List.filter_cons, h] using this)
    rw [this]

end Pfcp
