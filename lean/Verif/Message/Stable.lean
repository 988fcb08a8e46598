/-
C22 exactly: when decoding a re-encoded message gives the message back.
-/
import Verif.Message.Props
import Verif.IE.Accept

namespace Pfcp

variable (g : IEType → Bool)

/-! ### What the element decoder returns -/

/-- The element announces exactly the octets it holds. -/
def Closed (i : IE) : Prop :=
  i.length.toNat = (if isVendor i.typ then 2 else 0) + i.payload.length ∧
  (isVendor i.typ = false → i.eid = 0) ∧
  (if g i.typ then parseMulti g i.payload = .ok i.children else i.children = [])

/-- The element is a header without the octets it announces. -/
def Bare (i : IE) : Prop :=
  i.payload = [] ∧ i.children = [] ∧ (isVendor i.typ = true → 2 ≤ i.length.toNat) ∧
  (isVendor i.typ = false → i.eid = 0) ∧ i.length.toNat ≠ (if isVendor i.typ then 2 else 0)

theorem Closed.enc {i : IE} (h : Closed g i) :
    i.enc g = encHdr i.typ i.length i.eid ++ i.payload := by
  obtain ⟨t, len, eid, p, cs⟩ := i
  obtain ⟨_, _, h⟩ := h
  simp only [IE.enc]
  by_cases hg : g t = true
  · simp only [hg, if_true] at h
    rw [if_pos hg, ((parse_sound g p.length).2 p (Nat.le_refl _)).2 cs h]
  · rw [if_neg hg]

theorem Bare.enc {i : IE} (h : Bare i) : i.enc g = encHdr i.typ i.length i.eid := by
  obtain ⟨t, len, eid, p, cs⟩ := i
  obtain ⟨h1, h2, _⟩ := h
  simp only at h1 h2
  subst h1 h2
  simp [IE.enc, encList]

theorem hdrLen_eq (t : IEType) : hdrLen t = 4 + if isVendor t then 2 else 0 := by
  unfold hdrLen; split <;> rfl

theorem Closed.length {i : IE} (h : Closed g i) : (i.enc g).length = 4 + i.length.toNat := by
  rw [h.enc, h.1]; simp [hdrLen_eq]; omega

theorem Bare.length {i : IE} (h : Bare i) : (i.enc g).length ≠ 4 + i.length.toNat := by
  have h5 := h.2.2.2.2
  rw [h.enc]; simp only [encHdr_length, hdrLen_eq]; omega

theorem eid_self (t : IEType) (eid : UInt16) (h : isVendor t = false → eid = 0) :
    (if isVendor t then eid else 0) = eid := by
  by_cases hv : isVendor t = true
  · simp [hv]
  · rw [if_neg hv, h (by simpa using hv)]

/-- A closed element is decoded alone or in front of anything. -/
theorem Closed.parse {i : IE} (h : Closed g i) (rest : Bytes) :
    parse g (i.enc g ++ rest) = .ok i := by
  rw [h.enc]
  obtain ⟨t, len, eid, p, cs⟩ := i
  obtain ⟨h1, h2, h3⟩ := h
  simp only at h1 h2 h3 ⊢
  by_cases hne : p ++ rest = []
  · simp only [List.append_eq_nil_iff] at hne
    obtain ⟨rfl, rfl⟩ := hne
    have hc : cs = [] := by
      by_cases hg : g t = true
      · simp only [hg, if_true, parseMulti_nil, Res.ok.injEq] at h3; exact h3.symm
      · simpa [hg] using h3
    rw [List.append_nil, List.append_nil, parse_bare g t len eid (by
      intro hv; simp [hv] at h1; omega), eid_self t eid h2, hc]
  · rw [parse_tlv g t len eid p rest h1 hne, eid_self t eid h2]
    by_cases hg : g t = true
    · simp only [hg, if_true] at h3 ⊢
      rw [h3]; rfl
    · simp only [hg] at h3 ⊢
      simp at h3 ⊢
      exact h3

theorem Bare.parse {i : IE} (h : Bare i) : Pfcp.parse g (i.enc g) = .ok i := by
  rw [h.enc]
  obtain ⟨t, len, eid, p, cs⟩ := i
  obtain ⟨h1, h2, h3, h4, _⟩ := h
  simp only at h1 h2 h3 h4 ⊢
  subst h1 h2
  rw [parse_bare g t len eid h3, eid_self t eid h4]

/-- Whatever the element decoder returns is closed, or a bare header and the input is nothing else. -/
theorem parse_got {b : Bytes} {i : IE} (hi : parse g b = .ok i) :
    Closed g i ∨ (Bare i ∧ b = i.enc g) := by
  rw [parse_unfold, parseBody_eq] at hi
  by_cases h4 : b.length < 4
  · simp [h4] at hi
  simp only [h4, if_false] at hi
  generalize ht : dec16 (b.take 2) = t at hi
  generalize hlen : dec16 ((b.drop 2).take 2) = len at hi
  by_cases h6 : isVendor t = true ∧ b.length < 6
  · rw [if_pos h6] at hi; cases hi
  rw [if_neg h6] at hi
  by_cases h2 : isVendor t = true ∧ len.toNat < 2
  · rw [if_pos h2] at hi; cases hi
  rw [if_neg h2] at hi
  generalize he : (if isVendor t then dec16 ((b.drop 4).take 2) else 0) = eid at hi
  have heid : isVendor t = false → eid = 0 := by intro hv; rw [← he]; simp [hv]
  have hle' : hdrLen t ≤ b.length := by
    unfold hdrLen
    split
    · rename_i hv; have : ¬ b.length < 6 := fun h => h6 ⟨hv, h⟩; omega
    · omega
  have hv2 : isVendor t = true → 2 ≤ len.toNat := by
    intro hv
    have : ¬ len.toNat < 2 := fun h => h2 ⟨hv, h⟩
    omega
  by_cases h7 : b.length ≤ hdrLen t
  · have hhdr := take_hdr b t eid len ht.symm hlen.symm he.symm hle'
    rw [List.take_of_length_le h7] at hhdr
    rw [if_pos h7] at hi
    cases hi
    by_cases hl : len.toNat = (if isVendor t then 2 else 0)
    · left
      refine ⟨by simpa using hl, heid, ?_⟩
      by_cases hg : g t = true <;> simp [hg, parseMulti_nil]
    · right
      have hb : Bare (⟨t, len, eid, [], []⟩ : IE) := ⟨rfl, rfl, hv2, heid, hl⟩
      exact ⟨hb, by rw [hb.enc]; exact hhdr.symm⟩
  rw [if_neg h7] at hi
  generalize hend : len.toNat - (hdrLen t - 4) = endd at hi
  by_cases h8 : b.length < hdrLen t + endd
  · rw [if_pos h8] at hi; cases hi
  rw [if_neg h8] at hi
  generalize hp : (b.drop (hdrLen t)).take endd = payload at hi
  have hplen : payload.length = endd := by rw [← hp]; simp; omega
  have hll : len.toNat = (if isVendor t then 2 else 0) + payload.length := by
    rw [hplen, ← hend]
    unfold hdrLen
    by_cases hv : isVendor t = true
    · have := hv2 hv
      simp [hv]; omega
    · simp [hv]
  left
  by_cases hg : g t = true
  · rw [if_pos hg] at hi
    obtain ⟨ds, hds, hi⟩ := Res.bind_eq_ok.1 hi
    cases hi
    exact ⟨hll, heid, by simp only [hg, if_true]; exact hds⟩
  · rw [if_neg hg] at hi
    cases hi
    exact ⟨hll, heid, by simp [hg]⟩

/-- The decoder of element lists, one step. -/
theorem parseMulti_cons_inv {b : Bytes} {xs : List IE} (hb : b ≠ []) (h : parseMulti g b = .ok xs) :
    ∃ i ys, xs = i :: ys ∧ parse g b = .ok i ∧ b = i.enc g ++ b.drop (i.enc g).length ∧
      parseMulti g (b.drop (i.enc g).length) = .ok ys := by
  rw [parseMulti_unfold g b hb] at h
  obtain ⟨i, hi, h⟩ := Res.bind_eq_ok.1 h
  obtain ⟨rest, hr, h⟩ := Res.bind_eq_ok.1 h
  obtain ⟨cs, hcs, h⟩ := Res.bind_eq_ok.1 h
  obtain ⟨hle, htake⟩ := ((parse_sound g b.length).1 b (Nat.le_refl _)).2 i hi
  rw [marshalLen_eq, slice_tail _ _ hle] at hr
  cases hr
  rw [hcs, Res.ok_bind, Res.pure_eq, Res.ok.injEq] at h
  subst h
  refine ⟨i, cs, rfl, hi, ?_, hcs⟩
  conv => lhs; rw [← List.take_append_drop (i.enc g).length b, htake]

/-- Every element of a decoded list is closed or bare. -/
theorem parseMulti_got : ∀ (n : Nat) (b : Bytes) (xs : List IE), b.length ≤ n →
    parseMulti g b = .ok xs → ∀ i ∈ xs, Closed g i ∨ Bare i := by
  intro n
  induction n with
  | zero =>
    intro b xs hb h i hi
    have : b = [] := List.length_eq_zero_iff.1 (by omega)
    rw [this, parseMulti_nil] at h
    cases h; cases hi
  | succ n ih =>
    intro b xs hb h i hi
    by_cases hb0 : b = []
    · rw [hb0, parseMulti_nil] at h
      cases h; cases hi
    obtain ⟨x, ys, rfl, hx, hs, hy⟩ := parseMulti_cons_inv g hb0 h
    have h4 := enc_length_pos g x
    rcases List.mem_cons.1 hi with rfl | hi
    · exact (parse_got g hx).imp id (·.1)
    · refine ih _ ys ?_ hy i hi
      have := List.length_pos_iff.2 hb0
      simp only [List.length_drop]; omega

/-- Closed elements, the last possibly bare, are decoded as they are. -/
theorem parseMulti_closed : (ys : List IE) → (∀ i ∈ ys, Closed g i ∨ Bare i) →
    (∀ i ∈ ys.dropLast, Closed g i) → parseMulti g (encList g ys) = .ok ys
  | [], _, _ => by simp [encList, parseMulti_nil]
  | [y], h, _ => by
    have hp : parse g (y.enc g ++ []) = .ok y := by
      rcases h y (by simp) with h | h
      · exact h.parse g []
      · rw [List.append_nil]; exact h.parse g
    exact parseMulti_step (rest := []) (by simp [encList]) (by simpa [encList] using hp)
      (parseMulti_nil g)
  | y :: z :: ys, h, hd => by
    have hy := hd y (by simp)
    have ih := parseMulti_closed (z :: ys) (fun i hi => h i (by simp [hi]))
      (fun i hi => hd i (by simp [hi]))
    exact parseMulti_step (i := y) (rest := encList g (z :: ys)) (by simp [encList])
      (by rw [encList]; exact hy.parse g _) ih

/-- Elements that come back with every type's elements the same: all but the last are closed. -/
theorem closed_of_same : (ys zs : List IE) → (∀ i ∈ ys, Closed g i ∨ Bare i) →
    parseMulti g (encList g ys) = .ok zs →
    (∀ t : IEType, ys.filter (fun i => decide (i.typ = t)) = zs.filter (fun i => decide (i.typ = t))) →
    ∀ i ∈ ys.dropLast, Closed g i
  | [], _, _, _, _ => by simp
  | [y], _, _, _, _ => by simp
  | y :: z :: ys, zs, h, hz, hf => by
    have hne : encList g (y :: z :: ys) ≠ [] := by
      intro he
      have h1 := congrArg List.length he
      have h2 := enc_length_pos g y
      simp only [encList, List.length_append, List.length_nil] at h1
      omega
    obtain ⟨y', zs', rfl, hy', hs, hzs⟩ := parseMulti_cons_inv g hne hz
    have hb : encList g (y :: z :: ys) = y.enc g ++ encList g (z :: ys) := by simp [encList]
    have hy : Closed g y := by
      rcases h y (by simp) with h | hB
      · exact h
      exfalso
      -- the decoded head has the same header
      have hhd : y'.typ = y.typ ∧ y'.length = y.length := by
        rw [parse_unfold, parseBody_eq] at hy'
        obtain ⟨e1, e2, _⟩ := encHdr_append y.typ y.length y.eid (encList g (z :: ys))
        rw [hb, hB.enc, e1, e2, dec16_be16, dec16_be16] at hy'
        simp only at hy'
        split at hy'
        · cases hy'
        split at hy'
        · cases hy'
        split at hy'
        · cases hy'
        split at hy'
        · cases hy'; exact ⟨rfl, rfl⟩
        split at hy'
        · cases hy'
        split at hy'
        · obtain ⟨cs, _, hy'⟩ := Res.bind_eq_ok.1 hy'
          cases hy'; exact ⟨rfl, rfl⟩
        · cases hy'; exact ⟨rfl, rfl⟩
      have hcl : Closed g y' := by
        rcases parse_got g hy' with h | ⟨hB', heq⟩
        · exact h
        · exfalso
          rw [hb, hB.enc, hB'.enc] at heq
          have h1 := congrArg List.length heq
          have h2 := enc_length_pos g z
          simp only [encList, List.length_append, encHdr_length, hhd.1] at h1
          omega
      have hyy : y = y' := by
        have := hf y.typ
        simp only [List.filter_cons, decide_true, if_true, hhd.1] at this
        exact (List.cons.inj this).1
      subst hyy
      exact hB.length g (hcl.length g)
    have hyy : y = y' := by
      have := hy.parse g (encList g (z :: ys))
      rw [← hb, hy'] at this
      exact (Res.ok.inj this).symm
    subst hyy
    have hdrop : (encList g (y :: z :: ys)).drop (y.enc g).length = encList g (z :: ys) := by
      rw [hb, List.drop_left]
    rw [hdrop] at hzs
    have ih := closed_of_same (z :: ys) zs' (fun i hi => h i (by simp [hi])) hzs (by
      intro t
      have := hf t
      by_cases ht : y.typ = t
      · simpa [List.filter_cons, ht] using this
      · simpa [List.filter_cons, ht] using this)
    intro i hi
    rw [List.dropLast_cons_of_ne_nil (by simp)] at hi
    rcases List.mem_cons.1 hi with rfl | hi
    · exact hy
    · exact ih i hi

/-! ### Nothing is lost if the size is kept -/

/-- Number of octets. -/
def octets (xs : List IE) : Nat := (encList g xs).length

theorem octets_append (xs ys : List IE) : octets g (xs ++ ys) = octets g xs + octets g ys := by
  simp [octets, encList_append]

theorem octets_zero {xs : List IE} (h : octets g xs = 0) : xs = [] :=
  Msg.body_short g xs (by unfold octets at h; omega)

theorem octets_split (p : IE → Bool) (xs : List IE) :
    octets g xs = octets g (xs.filter p) + octets g (xs.filter fun i => !p i) := by
  induction xs with
  | nil => rfl
  | cons x xs ih =>
    have hc : ∀ l, octets g (x :: l) = (x.enc g).length + octets g l := by
      intro l; simp [octets, encList]
    cases hp : p x <;> simp [hp, hc, ih] <;> omega

/-- A list is split by type. -/
theorem octets_types (xs : List IE) : (l : List IEType) → l.Nodup →
    octets g xs = (l.map fun t => octets g (xs.filter fun i => decide (i.typ = t))).sum +
      octets g (xs.filter fun i => decide (i.typ ∉ l))
  | [], _ => by
    have : (xs.filter fun i => decide (i.typ ∉ ([] : List IEType))) = xs := by
      rw [List.filter_eq_self]; simp
    rw [this]; simp
  | t :: l, h => by
    rw [List.nodup_cons] at h
    rw [octets_types xs l h.2, octets_split g (fun i => decide (i.typ = t))
      (xs.filter fun i => decide (i.typ ∉ l)), List.filter_filter, List.filter_filter]
    have e1 : (xs.filter fun i => decide (i.typ = t) && decide (i.typ ∉ l)) =
        xs.filter fun i => decide (i.typ = t) := by
      apply List.filter_congr
      intro i _
      by_cases hi : i.typ = t
      · simp [hi, h.1]
      · simp [hi]
    have e2 : (xs.filter fun i => (!decide (i.typ = t)) && decide (i.typ ∉ l)) =
        xs.filter fun i => decide (i.typ ∉ t :: l) := by
      apply List.filter_congr
      intro i _
      simp
    rw [e1, e2]
    simp only [List.map_cons, List.sum_cons]
    omega

theorem octets_flatMap {α : Type} (l : List α) (f : α → List IE) :
    octets g (l.flatMap f) = (l.map fun a => octets g (f a)).sum := by
  induction l with
  | nil => rfl
  | cons a l ih => simp [octets_append, ih]

theorem sum_eq_pointwise {α : Type} (l : List α) (f h : α → Nat) (hle : ∀ a ∈ l, f a ≤ h a)
    (hs : (l.map h).sum ≤ (l.map f).sum) : ∀ a ∈ l, f a = h a := by
  have hmono : ∀ l : List α, (∀ a ∈ l, f a ≤ h a) → (l.map f).sum ≤ (l.map h).sum := by
    intro l
    induction l with
    | nil => simp
    | cons a l ih =>
      intro hle
      have h1 := hle a (by simp)
      have h2 := ih (fun b hb => hle b (by simp [hb]))
      simp only [List.map_cons, List.sum_cons]; omega
  induction l with
  | nil => simp
  | cons a l ih =>
    have h1 := hle a (by simp)
    have h2 := hmono l (fun b hb => hle b (by simp [hb]))
    simp only [List.map_cons, List.sum_cons] at hs
    intro b hb
    rcases List.mem_cons.1 hb with rfl | hb
    · omega
    · exact ih (fun c hc => hle c (by simp [hc])) (by omega) b hb

/-- What a slot keeps is all of it, or less. -/
theorem collect_octets (c : Card) (xs : List IE) :
    octets g (Slot.collect c xs).elems ≤ octets g xs ∧
      (octets g (Slot.collect c xs).elems = octets g xs → (Slot.collect c xs).elems = xs) := by
  cases c with
  | many =>
    have : (Slot.collect .many xs).elems = xs := by
      simp [Slot.collect, Slot.elems]
    rw [this]; exact ⟨Nat.le_refl _, fun _ => rfl⟩
  | one =>
    simp only [Slot.collect, Slot.elems]
    rcases List.eq_nil_or_concat xs with rfl | ⟨ys, y, rfl⟩
    · simp
    · rw [List.concat_eq_append, List.getLast?_concat, octets_append]
      simp only [Option.toList_some]
      refine ⟨by omega, ?_⟩
      intro h
      rw [octets_zero g (xs := ys) (by omega)]; rfl

namespace Msg

/-- Filing keeps the octets only if it keeps every element. -/
theorem filed_same (k : Kind) (h : Header) (xs : List IE)
    (ho : octets g (filed k h xs).elements = octets g xs) (t : IEType) :
    (filed k h xs).elements.filter (fun i => decide (i.typ = t)) =
      xs.filter (fun i => decide (i.typ = t)) := by
  have hnd : ((k.tab.fields.map fun p => fieldIE k p.1)).Nodup := by
    have hn : (k.tab.fields.map (·.1)).Nodup := Kind.names_nodup k
    have : (k.tab.fields.map fun p => fieldIE k p.1) = k.names.map (fieldIE k) := by
      simp [Kind.names]
    rw [this]
    rw [List.nodup_iff_pairwise_ne, List.pairwise_map]
    have hn' : k.names.Nodup := hn
    rw [List.nodup_iff_pairwise_ne] at hn'
    refine List.Pairwise.imp_of_mem ?_ hn'
    intro a b ha hb hab he
    exact hab (Kind.fieldIE_inj k a b ha hb he)
  have hun : (xs.filter fun i => decide (i.typ ∉ k.tab.fields.map fun p => fieldIE k p.1)) =
      xs.filter fun i => decide (∀ n ∈ k.names, i.typ ≠ fieldIE k n) := by
    apply List.filter_congr
    intro i _
    apply decide_eq_decide.2
    simp only [List.mem_map, Kind.names, not_exists, not_and]
    constructor
    · rintro h n ⟨p, hp, rfl⟩ he
      exact h p hp he.symm
    · intro h p hp he
      exact h p.1 ⟨p, hp, rfl⟩ he.symm
  have hel : (filed k h xs).elements =
      (k.tab.fields.flatMap fun p =>
        (Slot.collect p.2 (xs.filter fun i => decide (i.typ = fieldIE k p.1))).elems) ++
      xs.filter fun i => decide (∀ n ∈ k.names, i.typ ≠ fieldIE k n) := by
    simp only [elements, filed, filterMap_id_map_some, List.flatMap_map]
  have key : ∀ p ∈ k.tab.fields,
      (Slot.collect p.2 (xs.filter fun i => decide (i.typ = fieldIE k p.1))).elems =
        xs.filter fun i => decide (i.typ = fieldIE k p.1) := by
    have h1 := octets_types g xs _ hnd
    rw [hun] at h1
    rw [hel, octets_append, octets_flatMap, h1, List.map_map] at ho
    have := sum_eq_pointwise k.tab.fields
      (fun p => octets g (Slot.collect p.2 (xs.filter fun i => decide (i.typ = fieldIE k p.1))).elems)
      (fun p => octets g (xs.filter fun i => decide (i.typ = fieldIE k p.1)))
      (fun p _ => (collect_octets g p.2 _).1) (by
        have e : ((fun t => octets g (xs.filter fun i => decide (i.typ = t))) ∘
            fun p : FieldName × Card => fieldIE k p.1) =
            fun p => octets g (xs.filter fun i => decide (i.typ = fieldIE k p.1)) := rfl
        rw [e] at ho
        omega)
    intro p hp
    exact (collect_octets g p.2 _).2 (this p hp)
  have hel' : (filed k h xs).elements =
      ((k.tab.fields.map fun p => fieldIE k p.1).flatMap fun t =>
        xs.filter fun i => decide (i.typ = t)) ++
      xs.filter fun i => decide (i.typ ∉ k.tab.fields.map fun p => fieldIE k p.1) := by
    rw [hel, hun, List.flatMap_map]
    congr 1
    have : ∀ (l : List (FieldName × Card)), (∀ p ∈ l, p ∈ k.tab.fields) →
        (l.flatMap fun p =>
          (Slot.collect p.2 (xs.filter fun i => decide (i.typ = fieldIE k p.1))).elems) =
        l.flatMap fun p => xs.filter fun i => decide (i.typ = fieldIE k p.1) := by
      intro l
      induction l with
      | nil => simp
      | cons a l ih =>
        intro hl
        simp only [List.flatMap_cons]
        rw [key a (hl a (by simp)), ih (fun p hp => hl p (by simp [hp]))]
    exact this _ (fun _ h => h)
  rw [hel']
  -- now a fact about lists split by type
  have gen : ∀ l : List IEType, l.Nodup →
      ((l.flatMap fun u => xs.filter fun i => decide (i.typ = u)) ++
        xs.filter fun i => decide (i.typ ∉ l)).filter (fun i => decide (i.typ = t)) =
      xs.filter (fun i => decide (i.typ = t)) := by
    have self : ∀ u, (xs.filter fun i => decide (i.typ = u)).filter (fun i => decide (i.typ = t)) =
        if u = t then xs.filter (fun i => decide (i.typ = t)) else [] := by
      intro u
      rw [List.filter_filter]
      by_cases hu : u = t
      · subst hu
        rw [if_pos rfl]
        apply List.filter_congr; intro i _; simp
      · rw [if_neg hu, List.filter_eq_nil_iff]
        intro i _
        simp
        intro h1 h2; exact hu (h2.symm.trans h1)
    have out : ∀ l : List IEType, t ∉ l →
        ((l.flatMap fun u => xs.filter fun i => decide (i.typ = u))).filter
          (fun i => decide (i.typ = t)) = [] := by
      intro l
      induction l with
      | nil => simp
      | cons u l ih =>
        intro h
        simp only [List.mem_cons, not_or] at h
        simp only [List.flatMap_cons, List.filter_append]
        rw [self, if_neg (fun e => h.1 e.symm), ih h.2]; rfl
    intro l hl
    rw [List.filter_append]
    by_cases ht : t ∈ l
    · have e2 : (xs.filter fun i => decide (i.typ ∉ l)).filter (fun i => decide (i.typ = t)) = [] := by
        rw [List.filter_filter, List.filter_eq_nil_iff]
        intro i _
        simp
        intro h; rw [h]; exact ht
      rw [e2, List.append_nil]
      induction l with
      | nil => cases ht
      | cons u l ih =>
        rw [List.nodup_cons] at hl
        simp only [List.flatMap_cons, List.filter_append]
        rw [self]
        by_cases hu : u = t
        · rw [if_pos hu, out l (hu ▸ hl.1), List.append_nil]
        · rw [if_neg hu, List.nil_append]
          have ht' : t ∈ l := by
            rcases List.mem_cons.1 ht with h | h
            · exact absurd h.symm hu
            · exact h
          refine ih hl.2 ht' ?_
          rw [List.filter_filter, List.filter_eq_nil_iff]
          intro i _
          simp
          intro h; rw [h]; exact ht'
    · rw [out l ht, List.nil_append, List.filter_filter]
      apply List.filter_congr
      intro i _
      by_cases hi : i.typ = t
      · simp [hi, ht]
      · simp [hi]
  exact gen _ hnd

/-- C22 (b), exactly: decoding the re-encoded message gives the message back if and only if every element
but the last (in the order of encoding) announces exactly the octets it holds. -/
theorem C22_stability_iff (b : Bytes) (m : Msg) (h : parse g b = .ok m) :
    (∃ b', marshal g m = .ok b' ∧ parse g b' = .ok { m with header := m.wireHeader g }) ↔
      ∀ i ∈ m.elements.dropLast, (i.enc g).length = 4 + i.length.toNat := by
  have hm : ∃ xs, m = filed (kindOf m.header.typ) m.header xs ∧ m.header.WF ∧
      ∀ i ∈ xs, Closed g i ∨ Bare i := by
    rw [parse_normal, Res.bind_eq_ok] at h
    obtain ⟨hd, hp, h⟩ := h
    have hw := (Header.parse_sound _ _ hp).2
    by_cases h2 : hd.payload.length < 2
    · rw [if_pos h2] at h
      cases h
      exact ⟨[], rfl, hw, by simp⟩
    · rw [if_neg h2, Res.bind_eq_ok] at h
      obtain ⟨ys, hy, h⟩ := h
      cases h
      exact ⟨ys, rfl, hw, parseMulti_got g _ _ ys (Nat.le_refl _) hy⟩
  obtain ⟨xs, hm, hw, hgot⟩ := hm
  have hmar := C22_reencode g b m h
  have hgel : ∀ i ∈ m.elements, Closed g i ∨ Bare i := by
    intro i hi
    rw [hm] at hi
    exact hgot i (filed_elements_mem _ _ _ i hi)
  have hwh : (m.wireHeader g).WF := hw
  have hty : kindOf (m.wireHeader g).typ = m.kind := by
    have : m.kind = kindOf m.header.typ := by rw [hm]; rfl
    rw [this]; rfl
  have hself : filed m.kind (m.wireHeader g) m.elements = { m with header := m.wireHeader g } := by
    have hs : m.Shaped := by rw [hm]; exact filed_shaped _ _ _
    have hn : m.NoNil := by rw [hm]; exact filed_noNil _ _ _
    rw [filed_elements m hs hn]
    · congr 1
      apply map_some_filterMap
      rw [hm]; simp [filed]
    · rw [hm]
      intro p hp i hi
      simp only [filed, List.mem_map] at hp
      obtain ⟨q, _, rfl⟩ := hp
      have := collect_elems_mem _ _ i hi
      simp only [List.mem_filter, decide_eq_true_eq] at this
      exact this.2
    · rw [hm]
      intro i hi p hp
      simp only [filed, filterMap_id_map_some, List.mem_filter, decide_eq_true_eq] at hi
      simp only [filed, List.mem_map] at hp
      obtain ⟨q, hq, rfl⟩ := hp
      exact hi.2 q.1 (List.mem_map.2 ⟨q, hq, rfl⟩)
  have hpar : parse g (m.wire g) =
      if (encList g m.elements).length < 2 then .ok (filed m.kind (m.wireHeader g) [])
      else (parseMulti g (encList g m.elements) >>= fun zs =>
        .ok (filed m.kind (m.wireHeader g) zs)) := by
    unfold wire
    rw [parse_normal, Header.parse_enc _ hwh, Res.ok_bind, hty]
    rfl
  constructor
  · rintro ⟨b', hb', hp'⟩ i hi
    rw [hmar] at hb'
    cases hb'
    rw [hpar] at hp'
    by_cases h2 : (encList g m.elements).length < 2
    · rw [body_short g _ h2] at hi; cases hi
    rw [if_neg h2, Res.bind_eq_ok] at hp'
    obtain ⟨zs, hz, hp'⟩ := hp'
    have hfz : filed m.kind (m.wireHeader g) zs = { m with header := m.wireHeader g } := by
      cases hq : filed m.kind (m.wireHeader g) zs
      rw [hq] at hp'
      exact Res.ok.inj hp'
    have hels : (filed m.kind (m.wireHeader g) zs).elements = m.elements := by rw [hfz]; rfl
    have henc := ((Pfcp.parse_sound g _).2 _ (Nat.le_refl _)).2 zs hz
    have hsame := filed_same g m.kind (m.wireHeader g) zs (by
      rw [hels]; unfold octets; rw [henc])
    rw [hels] at hsame
    exact (closed_of_same g m.elements zs hgel hz hsame i hi).length g
  · intro hl
    refine ⟨_, hmar, ?_⟩
    have hz := parseMulti_closed g m.elements hgel (by
      intro i hi
      rcases hgel i (List.dropLast_subset _ hi) with h | h
      · exact h
      · exact absurd (hl i hi) (h.length g))
    rw [hpar]
    by_cases h2 : (encList g m.elements).length < 2
    · rw [if_pos h2, ← body_short g _ h2, hself]
    · rw [if_neg h2, hz, Res.ok_bind, hself]

/-- The condition of `C22_stability_iff` is met by datagrams that `C22_stability_partial` does not cover,
and not by all. -/
example :
    (∃ m, parse (fun _ => false) [0x20, 9, 0, 8, 0, 0, 1, 0, 0, 60, 0, 5] = .ok m ∧
      ∀ i ∈ m.elements.dropLast, (i.enc (fun _ => false)).length = 4 + i.length.toNat) ∧
    (∃ m, parse (fun _ => false)
        [0x20, 9, 0, 13, 0, 0, 1, 0, 0x7f, 0xff, 0, 1, 7, 0, 60, 0, 5] = .ok m ∧
      ¬ ∀ i ∈ m.elements.dropLast, (i.enc (fun _ => false)).length = 4 + i.length.toNat) := by
  refine ⟨⟨_, rfl, by decide⟩, ⟨_, rfl, by decide⟩⟩

end Msg
end Pfcp
