/-
Property C45 for messages, exact: what `UnmarshalBinary` leaves in a message that was used before.
-/
import Verif.Message.Props

namespace Pfcp

/-- Value of a field after decoding into `old`, when a fresh decode gives the third argument: a pointer that was not set keeps its
old target, lists are continued. -/
def Slot.onto : Slot → Slot → Slot
  | .one x, .one none => .one x
  | .one _, .one (some i) => .one (some i)
  | .many xs, .many ys => .many (xs ++ ys)
  | _, s => s

namespace Msg

/-- The message after decoding into `old`, when a fresh decode gives `f`. -/
def onto (old f : Msg) : Msg where
  kind := old.kind
  header := f.header
  fields := List.zipWith (fun p q => (p.1, p.2.onto q.2)) old.fields f.fields
  ies := if old.kind = .generic then (if f.header.payload.length < 2 then old.ies else f.ies) else old.ies ++ f.ies

/-- The fields of `m` are those that the Go type of its kind declares. -/
def Typed (m : Msg) : Prop := m.fields.map (fun p => (p.1, p.2.card)) = m.kind.tab.fields

theorem Slot.onto_put (s t : Slot) (i : IE) (h : s.card = t.card) : s.onto (t.put i) = (s.onto t).put i := by
  cases s <;> cases t
  · rename_i x y; cases y <;> rfl
  · cases h
  · cases h
  · simp [Slot.onto, Slot.put]

theorem Slot.onto_zero (s : Slot) (c : Card) (h : s.card = c) : s.onto (Slot.zero c) = s := by
  subst h
  cases s <;> simp [Slot.onto, Slot.zero, Slot.card]

theorem Slot.put_card (s : Slot) (i : IE) : (s.put i).card = s.card := by cases s <;> rfl

theorem zip_names {xs ys : List (FieldName × Slot)} (h : xs.map (fun p => (p.1, p.2.card)) = ys.map (fun p => (p.1, p.2.card))) :
    (List.zipWith (fun p q => (p.1, p.2.onto q.2)) xs ys).map (·.1) = ys.map (·.1) := by
  induction xs generalizing ys with
  | nil => cases ys with
    | nil => rfl
    | cons y ys => simp at h
  | cons x xs ih => cases ys with
    | nil => simp at h
    | cons y ys =>
      simp only [List.map_cons, List.cons.injEq, Prod.mk.injEq] at h
      simp only [List.zipWith_cons_cons, List.map_cons, h.1.1, ih h.2]

theorem zip_put {xs ys : List (FieldName × Slot)} (h : xs.map (fun p => (p.1, p.2.card)) = ys.map (fun p => (p.1, p.2.card)))
    (n : FieldName) (i : IE) :
    (List.zipWith (fun p q => (p.1, p.2.onto q.2)) xs ys).map (fun p => if p.1 = n then (p.1, p.2.put i) else p) =
    List.zipWith (fun p q => (p.1, p.2.onto q.2)) xs (ys.map (fun p => if p.1 = n then (p.1, p.2.put i) else p)) := by
  induction xs generalizing ys with
  | nil => cases ys <;> rfl
  | cons x xs ih => cases ys with
    | nil => rfl
    | cons y ys =>
      simp only [List.map_cons, List.cons.injEq, Prod.mk.injEq] at h
      simp only [List.zipWith_cons_cons, List.map_cons, ih h.2]
      congr 1
      rw [h.1.1]
      by_cases hn : y.1 = n
      · rw [if_pos hn, if_pos hn, Slot.onto_put _ _ _ h.1.2]
      · rw [if_neg hn, if_neg hn]

theorem put_cards (ys : List (FieldName × Slot)) (n : FieldName) (i : IE) :
    (ys.map (fun p => if p.1 = n then (p.1, p.2.put i) else p)).map (fun p => (p.1, p.2.card)) = ys.map (fun p => (p.1, p.2.card)) := by
  rw [List.map_map]
  apply List.map_congr_left
  intro p _
  dsimp only [Function.comp]
  split
  · rw [Slot.put_card]
  · rfl

/-- Filing commutes with `onto` (for kinds with a switch). -/
theorem fileAll_onto (cases : List (IEType × FieldName)) (old : Msg) (hk : old.kind ≠ .generic) (is : List IE) : ∀ f : Msg,
    old.fields.map (fun p => (p.1, p.2.card)) = f.fields.map (fun p => (p.1, p.2.card)) → old.kind = f.kind →
    fileAll cases (old.onto f) is = fileAll cases f is >>= fun f' => .ok (old.onto f') := by
  induction is with
  | nil => intro f _ _; rfl
  | cons i is ih =>
    intro f hs hkind
    rw [fileAll, fileAll]
    unfold file
    cases hc : cases.lookup i.typ with
    | none =>
      simp only [Res.ok_bind]
      have := ih { f with ies := f.ies ++ [some i] } hs hkind
      rw [← this]
      simp [onto, hk]
    | some n =>
      simp only
      unfold put
      have hn : (old.onto f).fields.map (·.1) = f.fields.map (·.1) := zip_names hs
      rw [hn]
      split
      · simp only [Res.ok_bind]
        have := ih { f with fields := f.fields.map fun p => if p.1 = n then (p.1, p.2.put i) else p }
          (hs.trans (put_cards f.fields n i).symm) hkind
        rw [← this]
        simp only [onto, zip_put hs]
      · rfl

theorem zip_zero (fs : List (FieldName × Slot)) (ds : List (FieldName × Card)) (h : fs.map (fun p => (p.1, p.2.card)) = ds) :
    List.zipWith (fun p q => (p.1, p.2.onto q.2)) fs (ds.map fun p => (p.1, Slot.zero p.2)) = fs := by
  subst h
  induction fs with
  | nil => rfl
  | cons x xs ih =>
    simp only [List.map_cons, List.zipWith_cons_cons, ih, Slot.onto_zero]

theorem zero_card (c : Card) : (Slot.zero c).card = c := by cases c <;> rfl

variable (g : IEType → Bool)

theorem onto_start (old : Msg) (ht : old.Typed) (h : Header) (hc : old.kind ≠ .generic ∨ h.payload.length < 2) :
    old.onto { zero old.kind with header := h } = { old with header := h } := by
  have hz : List.zipWith (fun p q => (p.1, p.2.onto q.2)) old.fields (zero old.kind).fields = old.fields := zip_zero old.fields _ ht
  unfold onto
  simp only [hz]
  congr 1
  split
  · rename_i hk
    rcases hc with hc | hc
    · exact absurd hk hc
    · rw [if_pos hc]
  · simp [zero]

/-- C45 (a), exact: decoding into a used message fails as a fresh decode does, and otherwise leaves `onto`: pointers that the new
datagram does not mention keep their old targets, lists and unknown elements are added to the old ones; only a message of unknown
type gets a new list of elements. -/
theorem C45_exact (old : Msg) (ht : old.Typed) (b : Bytes) :
    unmarshal g old b = unmarshal g (zero old.kind) b >>= fun f => .ok (old.onto f) := by
  unfold unmarshal
  cases Header.parse b with
  | err e => rfl
  | panic => rfl
  | ok h =>
    simp only [Res.ok_bind]
    by_cases hl : h.payload.length < 2
    · rw [if_pos hl, if_pos hl, Res.ok_bind, onto_start old ht h (.inr hl)]
    · rw [if_neg hl, if_neg hl]
      cases parseMulti g h.payload with
      | err e => rfl
      | panic => rfl
      | ok xs =>
        simp only [Res.ok_bind]
        by_cases hk : old.kind = .generic
        · obtain ⟨k, hd, fs, ies⟩ := old
          dsimp only at hk
          subst hk
          have hz := zip_zero fs _ ht
          simp only [zero, Res.ok_bind, onto, if_true, hl, if_false, hz]
        · have hf := fileAll_onto old.kind.tab.parseSwitch old hk xs { zero old.kind with header := h }
            (by
              rw [ht]
              show _ = (old.kind.tab.fields.map fun p => (p.1, Slot.zero p.2)).map _
              rw [List.map_map]
              exact ((List.map_congr_left (fun p _ => by simp only [Function.comp, zero_card, id])).trans (List.map_id _)).symm) rfl
          rw [onto_start old ht h (.inl hk)] at hf
          obtain ⟨k, hd, fs, ies⟩ := old
          cases k <;> first | exact hf | exact absurd rfl hk

theorem zip_eq {xs ys : List (FieldName × Slot)} (h : xs.map (fun p => (p.1, p.2.card)) = ys.map (fun p => (p.1, p.2.card))) :
    List.zipWith (fun p q => (p.1, p.2.onto q.2)) xs ys = ys ↔
      ∀ pq ∈ xs.zip ys, pq.1.2 = Slot.zero pq.1.2.card ∨ ∃ i, pq.2.2 = .one (some i) := by
  induction xs generalizing ys with
  | nil => cases ys with
    | nil => simp
    | cons y ys => simp at h
  | cons x xs ih => cases ys with
    | nil => simp at h
    | cons y ys =>
      simp only [List.map_cons, List.cons.injEq, Prod.mk.injEq] at h
      rw [List.zipWith_cons_cons, List.cons.injEq, List.zip_cons_cons, List.forall_mem_cons, ih h.2]
      refine and_congr ?_ Iff.rfl
      obtain ⟨⟨h1, h2⟩, _⟩ := h
      obtain ⟨n, s⟩ := x
      obtain ⟨n', t⟩ := y
      dsimp only at h1 h2 ⊢
      subst h1
      cases s with
      | one a =>
        cases t with
        | many _ => cases h2
        | one b =>
          cases b with
          | none => cases a <;> simp [Slot.onto, Slot.zero, Slot.card]
          | some i => simp [Slot.onto]
      | many a =>
        cases t with
        | one _ => cases h2
        | many b => simp [Slot.onto, Slot.zero, Slot.card]

theorem fileAll_typed (cases : List (IEType × FieldName)) (is : List IE) : ∀ f f' : Msg, fileAll cases f is = .ok f' →
    f'.kind = f.kind ∧ f'.header = f.header ∧ f'.fields.map (fun p => (p.1, p.2.card)) = f.fields.map (fun p => (p.1, p.2.card)) := by
  induction is with
  | nil => intro f f' h; cases h; exact ⟨rfl, rfl, rfl⟩
  | cons i is ih =>
    intro f f' h
    rw [fileAll] at h
    obtain ⟨f1, h1, h⟩ := Res.bind_eq_ok.1 h
    obtain ⟨a, b, c⟩ := ih f1 f' h
    unfold file put at h1
    split at h1
    · split at h1
      · cases h1; exact ⟨a, b, c.trans (put_cards _ _ _)⟩
      · cases h1
    · cases h1; exact ⟨a, b, c⟩

theorem zero_typed (k : Kind) : (zero k).Typed := by
  unfold Typed zero
  rw [List.map_map]
  exact (List.map_congr_left (fun p _ => by simp only [Function.comp, zero_card, id])).trans (List.map_id _)

theorem unmarshal_typed (m : Msg) (ht : m.Typed) (b : Bytes) (f : Msg) (hf : unmarshal g m b = .ok f) :
    f.kind = m.kind ∧ f.Typed ∧ Header.parse b = .ok f.header := by
  unfold unmarshal at hf
  obtain ⟨h, hh, hf⟩ := Res.bind_eq_ok.1 hf
  dsimp only at hf
  split at hf
  · cases hf; exact ⟨rfl, ht, hh⟩
  · obtain ⟨xs, _, hf⟩ := Res.bind_eq_ok.1 hf
    split at hf
    · cases hf; exact ⟨rfl, ht, hh⟩
    · obtain ⟨a, b, c⟩ := fileAll_typed _ _ _ _ hf
      refine ⟨a, ?_, by rw [b]; exact hh⟩
      unfold Typed at ht ⊢
      rw [a, c]
      exact ht

/-- C45 (b), exact: the used message ends up like a fresh one if and only if every field was empty before or is a pointer that the
datagram sets, and there were no unknown elements before (a message of unknown type with a payload replaces them). -/
theorem C45_iff (old : Msg) (ht : old.Typed) (b : Bytes) (f : Msg) (hf : unmarshal g (zero old.kind) b = .ok f) :
    unmarshal g old b = .ok f ↔
      (∀ pq ∈ old.fields.zip f.fields, pq.1.2 = Slot.zero pq.1.2.card ∨ ∃ i, pq.2.2 = .one (some i)) ∧
      (old.ies = [] ∨ old.kind = .generic ∧ 2 ≤ f.header.payload.length) := by
  obtain ⟨hk, hft, hh⟩ := unmarshal_typed g _ (zero_typed old.kind) b f hf
  have hk' : f.kind = old.kind := hk
  have hsh : old.fields.map (fun p => (p.1, p.2.card)) = f.fields.map (fun p => (p.1, p.2.card)) := by
    rw [ht, hft, hk']
  rw [C45_exact g old ht b, hf, Res.ok_bind, Res.ok.injEq, ← zip_eq hsh]
  obtain ⟨k, hd, fs, ies⟩ := f
  dsimp only at hk' hsh
  subst hk'
  simp only [onto, Msg.mk.injEq, true_and]
  refine and_congr Iff.rfl ?_
  by_cases hg : old.kind = .generic
  · rw [if_pos hg]
    by_cases hl : hd.payload.length < 2
    · rw [if_pos hl]
      have : ies = [] := by
        unfold unmarshal at hf
        rw [hh, Res.ok_bind] at hf
        dsimp only at hf
        rw [if_pos hl] at hf
        injection hf with hf
        injection hf with _ _ _ hf
        exact hf.symm
      rw [this]
      simp [show ¬ 2 ≤ hd.payload.length by omega]
    · rw [if_neg hl]
      simp [hg, show 2 ≤ hd.payload.length by omega]
  · rw [if_neg hg]
    simp [hg]

/-- A used message that the next datagram overwrites in full. -/
example : let b : Bytes := [0x20, 9, 0, 9, 0, 0, 1, 0, 0, 60, 0, 1, 7]
    let c : Bytes := [0x20, 9, 0, 9, 0, 0, 2, 0, 0, 60, 0, 1, 8]
    ∃ m, parse (fun _ => false) b = .ok m ∧ unmarshal (fun _ => false) m c = parse (fun _ => false) c := by
  refine ⟨_, rfl, rfl⟩

end Msg
end Pfcp
