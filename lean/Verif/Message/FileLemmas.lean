/- How decoded elements are filed into fields: helper lemmas for `Verif/Message/Props.lean`. -/
import Verif.Message.Lemmas

namespace Pfcp
namespace Kind

/-- The names of the fields of a kind. -/
def names (k : Kind) : List FieldName := k.tab.fields.map (·.1)

theorem lookup_switch (k : Kind) (t : IEType) (n : FieldName) (hn : n ∈ k.names) :
    k.tab.parseSwitch.lookup t = some n ↔ t = fieldIE k n := by
  constructor
  · intro h; exact switch_types k _ (mem_of_lookup _ _ _ h)
  · intro h
    unfold names at hn
    rw [← switch_names, List.mem_map] at hn
    obtain ⟨c, hc, rfl⟩ := hn
    rw [h, ← switch_types k c hc]
    exact lookup_of_mem _ (switch_nodup k) c hc

theorem lookup_switch_none (k : Kind) (t : IEType) :
    k.tab.parseSwitch.lookup t = none ↔ ∀ n ∈ k.names, t ≠ fieldIE k n := by
  constructor
  · intro h n hn he
    rw [(lookup_switch k t n hn).2 he] at h; cases h
  · intro h
    cases hl : k.tab.parseSwitch.lookup t with
    | none => rfl
    | some n =>
      have hm := mem_of_lookup _ _ _ hl
      have hn : n ∈ k.names := by
        unfold names; rw [← switch_names]; exact List.mem_map.2 ⟨_, hm, rfl⟩
      exact absurd ((lookup_switch k t n hn).1 hl) (h n hn)

theorem fieldIE_inj (k : Kind) (n n' : FieldName) (hn : n ∈ k.names) (hn' : n' ∈ k.names)
    (h : fieldIE k n = fieldIE k n') : n = n' := by
  have h1 := (lookup_switch k (fieldIE k n) n hn).2 rfl
  have h2 := (lookup_switch k (fieldIE k n) n' hn').2 h
  rw [h1] at h2
  exact Option.some.inj h2

end Kind

/-- What a field of the given cardinality holds after the elements `xs` (all of its type) arrived in
this order: a repeatable field all of them, a single one the last. -/
def Slot.collect : Card → List IE → Slot
  | .one, xs => .one xs.getLast?
  | .many, xs => .many (xs.map some)

namespace Msg

theorem putAll_zero (c : Card) (xs : List IE) : putAll (Slot.zero c) xs = Slot.collect c xs := by
  cases c with
  | one =>
    have : ∀ v, putAll (.one v) xs = .one (xs.getLast?.or v) := by
      induction xs with
      | nil => intro v; simp [putAll]
      | cons x xs ih =>
        intro v
        have := ih (some x)
        simp only [putAll, List.foldl_cons, Slot.put] at this ⊢
        rw [this]
        cases xs <;> simp [List.getLast?_cons]
    simp [Slot.zero, Slot.collect, this]
  | many =>
    have : ∀ vs, putAll (.many vs) xs = .many (vs ++ xs.map some) := by
      induction xs with
      | nil => intro v; simp [putAll]
      | cons x xs ih =>
        intro v
        have := ih (v ++ [some x])
        simp only [putAll, List.foldl_cons, Slot.put] at this ⊢
        rw [this]
        simp
    simp [Slot.zero, Slot.collect, this]

/-- The message of kind `k` with header `h` whose body consists of the elements `xs`: each field
collects the elements of its type, the rest stays in the extra list. -/
def filed (k : Kind) (h : Header) (xs : List IE) : Msg where
  kind := k
  header := h
  fields := k.tab.fields.map fun p =>
    (p.1, Slot.collect p.2 (xs.filter fun i => decide (i.typ = fieldIE k p.1)))
  ies := (xs.filter fun i => decide (∀ n ∈ k.names, i.typ ≠ fieldIE k n)).map some

theorem zero_names (k : Kind) : (zero k).fields.map (·.1) = k.names := by
  simp [zero, Kind.names]

theorem fileAll_zero (k : Kind) (h : Header) (xs : List IE) :
    fileAll k.tab.parseSwitch { zero k with header := h } xs = .ok (filed k h xs) := by
  rw [fileAll_eq]
  · congr 1
    unfold filed
    simp only [zero, List.nil_append, List.map_map]
    congr 1
    · apply List.map_congr_left
      intro p hp
      simp only [Function.comp]
      rw [putAll_zero]
      congr 2
      apply List.filter_congr
      intro i _
      rw [decide_eq_decide]
      exact Kind.lookup_switch k i.typ p.1 (List.mem_map.2 ⟨p, hp, rfl⟩)
    · congr 1
      apply List.filter_congr
      intro i _
      rw [decide_eq_decide]
      exact Kind.lookup_switch_none k i.typ
  · intro c hc
    have : c.2 ∈ k.tab.parseSwitch.map (·.2) := List.mem_map.2 ⟨c, hc, rfl⟩
    rw [Kind.switch_names] at this
    have hz := zero_names k
    unfold Kind.names at hz
    simp only
    rw [hz]; exact this

theorem filed_generic (h : Header) (xs : List IE) :
    filed .generic h xs = { zero .generic with header := h, ies := xs.map some } := by
  unfold filed zero
  simp [Kind.names, Kind.tab, tabGeneric]
  rw [List.filter_eq_self.2 (by simp)]

theorem filed_nil (k : Kind) (h : Header) : filed k h [] = { zero k with header := h } := by
  unfold filed zero
  simp only [List.filter_nil, List.map_nil]
  congr 1
  apply List.map_congr_left
  intro p _
  obtain ⟨n, c⟩ := p
  cases c <;> rfl

/-- Normal form of the message decoder. -/
theorem parse_normal (g : IEType → Bool) (b : Bytes) :
    parse g b = (Header.parse b >>= fun h =>
      if h.payload.length < 2 then .ok (filed (kindOf h.typ) h [])
      else (parseMulti g h.payload >>= fun xs => .ok (filed (kindOf h.typ) h xs))) := by
  unfold parse
  match b with
  | [] => simp [Header.parse_eq]
  | [x] => simp [Header.parse_eq]
  | f :: t :: rest =>
    have hl : ¬ (f :: t :: rest).length < 2 := by simp
    rw [if_neg hl]
    have hidx : index (f :: t :: rest) 1 = .ok t := rfl
    rw [hidx, Res.ok_bind]
    unfold unmarshal
    cases hp : Header.parse (f :: t :: rest) with
    | err e => rfl
    | panic => rfl
    | ok h =>
      have ht : h.typ = t := by
        have := (Header.parse_sound _ _ hp).1
        unfold Header.enc at this
        simp at this
        exact this.2.1
      simp only [Res.ok_bind, ht]
      by_cases h2 : h.payload.length < 2
      · rw [if_pos h2, if_pos h2, filed_nil]
      · rw [if_neg h2, if_neg h2]
        cases hm : parseMulti g h.payload with
        | err e => rfl
        | panic => rfl
        | ok xs =>
          simp only [Res.ok_bind]
          have hk : (zero (kindOf t)).kind = kindOf t := rfl
          simp only [hk]
          split
          · rename_i heq
            rw [heq, filed_generic]
            rfl
          · exact fileAll_zero (kindOf t) h xs

theorem filed_shaped (k : Kind) (h : Header) (xs : List IE) : (filed k h xs).Shaped := by
  unfold Shaped filed
  simp only [List.map_map]
  conv => rhs; rw [← List.map_id k.tab.fields]
  apply List.map_congr_left
  intro p _
  obtain ⟨n, c⟩ := p
  cases c <;> rfl

theorem filed_noNil (k : Kind) (h : Header) (xs : List IE) : (filed k h xs).NoNil := by
  intro p hp
  simp only [filed, List.mem_map] at hp
  obtain ⟨q, _, rfl⟩ := hp
  obtain ⟨n, c⟩ := q
  cases c <;> simp [Slot.collect, Slot.NoNil]

theorem collect_elems_mem (c : Card) (xs : List IE) : ∀ i ∈ (Slot.collect c xs).elems, i ∈ xs := by
  intro i hi
  cases c with
  | one =>
    simp only [Slot.collect, Slot.elems, Option.mem_toList] at hi
    exact List.mem_of_getLast? hi
  | many =>
    simp only [Slot.collect, Slot.elems] at hi
    rwa [filterMap_id_map_some] at hi

theorem filed_elements_mem (k : Kind) (h : Header) (xs : List IE) :
    ∀ i ∈ (filed k h xs).elements, i ∈ xs := by
  intro i hi
  simp only [elements, List.mem_append, List.mem_flatMap] at hi
  rcases hi with ⟨p, hp, hi⟩ | hi
  · simp only [filed, List.mem_map] at hp
    obtain ⟨q, _, rfl⟩ := hp
    exact (List.mem_filter.1 (collect_elems_mem _ _ i hi)).1
  · simp only [filed] at hi
    rw [filterMap_id_map_some] at hi
    exact (List.mem_filter.1 hi).1

/-! ### From a well-formed message back to itself -/

theorem filter_flatMap (T : FieldName → IEType) (l : List (FieldName × Slot))
    (hnd : (l.map (·.1)).Nodup)
    (hinj : ∀ p ∈ l, ∀ q ∈ l, T p.1 = T q.1 → p.1 = q.1)
    (ht : ∀ p ∈ l, ∀ i ∈ p.2.elems, i.typ = T p.1) (p : FieldName × Slot) (hp : p ∈ l) :
    (l.flatMap (fun p => p.2.elems)).filter (fun i => decide (i.typ = T p.1)) = p.2.elems := by
  induction l with
  | nil => cases hp
  | cons q l ih =>
    rw [List.map_cons, List.nodup_cons] at hnd
    simp only [List.flatMap_cons, List.filter_append]
    have hne : ∀ r ∈ l, T r.1 ≠ T q.1 := by
      intro r hr he
      have := hinj r (by simp [hr]) q (by simp) he
      exact hnd.1 (List.mem_map.2 ⟨r, hr, this⟩)
    cases hp with
    | head =>
      have h1 : p.2.elems.filter (fun i => decide (i.typ = T p.1)) = p.2.elems := by
        rw [List.filter_eq_self]
        intro i hi
        simp [ht p (by simp) i hi]
      have h2 : (l.flatMap (fun p => p.2.elems)).filter (fun i => decide (i.typ = T p.1)) = [] := by
        rw [List.filter_eq_nil_iff]
        intro i hi
        obtain ⟨r, hr, hi⟩ := List.mem_flatMap.1 hi
        have := ht r (by simp [hr]) i hi
        have hn := hne r hr
        simp [this, hn]
      rw [h1, h2, List.append_nil]
    | tail _ hp =>
      have h1 : q.2.elems.filter (fun i => decide (i.typ = T p.1)) = [] := by
        rw [List.filter_eq_nil_iff]
        intro i hi
        have := ht q (by simp) i hi
        have hn := hne p hp
        simp [this, Ne.symm hn]
      rw [h1, List.nil_append]
      exact ih hnd.2 (fun a ha b hb => hinj a (by simp [ha]) b (by simp [hb]))
        (fun a ha => ht a (by simp [ha])) hp

theorem collect_elems (s : Slot) (h : s.NoNil) : Slot.collect s.card s.elems = s := by
  cases s with
  | one v => cases v <;> rfl
  | many vs => simp only [Slot.card, Slot.elems, Slot.collect]; rw [map_some_filterMap vs h]

theorem filed_elements (m : Msg) (hs : m.Shaped) (hn : m.NoNil)
    (hf : ∀ p ∈ m.fields, ∀ i ∈ p.2.elems, i.typ = fieldIE m.kind p.1)
    (he : ∀ i ∈ m.ies.filterMap id, ∀ p ∈ m.fields, i.typ ≠ fieldIE m.kind p.1) (h : Header) :
    filed m.kind h m.elements = { m with header := h, ies := (m.ies.filterMap id).map some } := by
  have hnames : ∀ p ∈ m.fields, p.1 ∈ m.kind.names := by
    intro p hp
    unfold Kind.names; rw [← hs.names]; exact List.mem_map.2 ⟨p, hp, rfl⟩
  unfold filed
  congr 1
  · rw [← (show m.fields.map (fun p => (p.1, p.2.card)) = m.kind.tab.fields from hs), List.map_map]
    conv => rhs; rw [← List.map_id m.fields]
    apply List.map_congr_left
    intro p hp
    simp only [Function.comp, id]
    unfold elements
    rw [List.filter_append, filter_flatMap (fieldIE m.kind) m.fields hs.nodup
      (fun a ha b hb => Kind.fieldIE_inj m.kind a.1 b.1 (hnames a ha) (hnames b hb)) hf p hp]
    have : (m.ies.filterMap id).filter (fun i => decide (i.typ = fieldIE m.kind p.1)) = [] := by
      rw [List.filter_eq_nil_iff]
      intro i hi
      simp [he i hi p hp]
    rw [this, List.append_nil, collect_elems _ (hn p hp)]
  · congr 1
    unfold elements
    rw [List.filter_append]
    have h1 : (m.fields.flatMap (fun p => p.2.elems)).filter
        (fun i => decide (∀ n ∈ m.kind.names, i.typ ≠ fieldIE m.kind n)) = [] := by
      rw [List.filter_eq_nil_iff]
      intro i hi
      obtain ⟨p, hp, hi⟩ := List.mem_flatMap.1 hi
      simp only [decide_eq_true_eq]
      intro hh
      exact hh p.1 (hnames p hp) (hf p hp i hi)
    have h2 : (m.ies.filterMap id).filter
        (fun i => decide (∀ n ∈ m.kind.names, i.typ ≠ fieldIE m.kind n)) = m.ies.filterMap id := by
      rw [List.filter_eq_self]
      intro i hi
      simp only [decide_eq_true_eq]
      intro n hn
      unfold Kind.names at hn
      rw [← hs.names] at hn
      obtain ⟨p, hp, rfl⟩ := List.mem_map.1 hn
      exact he i hi p hp
    rw [h1, h2, List.nil_append]

theorem body_short (g : IEType → Bool) (xs : List IE) (h : (encList g xs).length < 2) : xs = [] := by
  cases xs with
  | nil => rfl
  | cons x xs =>
    have := enc_length_pos g x
    simp [encList] at h
    omega

/-- Decoding a header whose payload is the encoding of well-formed elements. -/
theorem parse_wire (g : IEType → Bool) (h : Header) (hw : h.WF) (xs : List IE) (hx : WFList g xs)
    (hp : h.payload = encList g xs) : parse g h.enc = .ok (filed (kindOf h.typ) h xs) := by
  rw [parse_normal, Header.parse_enc h hw, Res.ok_bind]
  by_cases h2 : h.payload.length < 2
  · rw [if_pos h2]
    rw [hp] at h2
    rw [body_short g xs h2]
  · rw [if_neg h2, hp, parseMulti_enc g xs hx]
    rfl

end Msg
end Pfcp
