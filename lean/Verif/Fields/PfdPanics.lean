/-
C41 exactly for PFD Contents: the inputs on which its decoder panics.
-/
import Verif.Fields.Panics
import Verif.Fields.Props7

namespace Pfcp.Fields

/-- The two octets at position `o` as a number. -/
def lenAt (b : Bytes) (o : Nat) : Nat :=
  match b.drop o with
  | hi :: lo :: _ => hi.toNat * 256 + lo.toNat
  | _ => 0

/-- A payload of `n` octets, with what is behind it in memory `b`, makes the decoder panic at position `o` when the parts
`ks` are still to be read; of each part it is given whether it is present, and whether it is a single text (otherwise a
list). It does if `o` is behind the payload, or if the check of the part succeeds and the declared length leads out of the
memory, or if a later part does. The check of a text demands `o + 2` octets behind `o`, that of a list two. -/
def crashes (b : Bytes) (n : Nat) : List (Bool × Bool) → Nat → Prop
  | [], _ => False
  | (present, text) :: ks, o =>
    if present then
      n < o ∨ (o + (if text then o + 2 else 2) ≤ n ∧
        (b.length < o + 2 + lenAt b o ∨ crashes b n ks (o + 2 + lenAt b o)))
    else crashes b n ks o

namespace PFDContents

/-- What reading one part does. -/
def Steps {α : Type} (p : P α) (text : Bool) : Prop :=
  ∀ (s : Slice) (o : Nat),
    (s.data.length < o ∧ p s o = .panic) ∨
    (o ≤ s.data.length ∧ s.data.length < o + (if text then o + 2 else 2) ∧ ∃ e, p s o = .err e) ∨
    (o + (if text then o + 2 else 2) ≤ s.data.length ∧ (s.data ++ s.spare).length < o + 2 + lenAt (s.data ++ s.spare) o ∧
      p s o = .panic) ∨
    (o + (if text then o + 2 else 2) ≤ s.data.length ∧ o + 2 + lenAt (s.data ++ s.spare) o ≤ (s.data ++ s.spare).length ∧
      ∃ v, p s o = .ok (v, o + 2 + lenAt (s.data ++ s.spare) o))

theorem u16_lenAt (s : Slice) (o : Nat) (h : o + 2 ≤ s.data.length) :
    ∃ n : UInt16, P.u16 s o = .ok (n, o + 2) ∧ n.toNat = lenAt (s.data ++ s.spare) o := by
  have hb := P.Moves.bytes 2 s o h
  refine ⟨dec16 ((s.data.drop o).take 2), by unfold P.u16; rw [P.bind_ok hb]; rfl, ?_⟩
  have hl : 2 ≤ (s.data.drop o).length := by simp; omega
  unfold lenAt
  rw [List.drop_append_of_le_length (by omega)]
  match s.data.drop o, hl with
  | hi :: lo :: r, _ =>
    have h1 := hi.toNat_lt
    have h2 := lo.toNat_lt
    show (dec16 [hi, lo]).toNat = _
    simp [dec16, beNat]
    omega

theorem rest_cases (s : Slice) (o : Nat) : (s.data.length < o ∧ P.rest s o = .panic) ∨
    (o ≤ s.data.length ∧ P.rest s o = .ok (s.data.drop o, o)) := by
  unfold P.rest Slice.subFrom Slice.sub Slice.cap Slice.len
  by_cases h : o ≤ s.data.length
  · right
    refine ⟨h, ?_⟩
    rw [if_pos ⟨h, by omega⟩, Res.ok_bind]
    simp only [List.take_left]
  · left
    refine ⟨by omega, ?_⟩
    rw [if_neg (fun h' => h h'.1)]
    rfl

theorem bytes_cases (s : Slice) (o n : Nat) : ((s.data ++ s.spare).length < o + n ∧ P.bytes n s o = .panic) ∨
    (o + n ≤ (s.data ++ s.spare).length ∧ ∃ v, P.bytes n s o = .ok (v, o + n)) := by
  unfold P.bytes Slice.sub Slice.cap
  split
  · exact .inr ⟨by simp; omega, _, rfl⟩
  · exact .inl ⟨by simp; omega, rfl⟩

theorem steps_text : Steps parseText true := by
  intro s o
  unfold parseText
  rcases rest_cases s o with ⟨h, e⟩ | ⟨h, e⟩
  · exact .inl ⟨h, P.bind_panic e⟩
  · right
    rw [P.bind_ok e, P.bind_ok (a := o) (o' := o) rfl]
    simp only [if_true, List.length_drop, Nat.add_zero]
    by_cases hc : s.data.length < o + (o + 2)
    · left
      rw [if_pos (by omega)]
      exact ⟨h, hc, _, rfl⟩
    · right
      rw [if_neg (by omega)]
      obtain ⟨n, hn, hl⟩ := u16_lenAt s o (by omega)
      rw [P.bind_ok hn, ← hl]
      rcases bytes_cases s (o + 2) n.toNat with ⟨hb, eb⟩ | ⟨hb, v, eb⟩
      · exact .inl ⟨by omega, hb, P.bind_panic eb⟩
      · exact .inr ⟨by omega, hb, _, by rw [P.bind_ok eb]; rfl⟩

theorem steps_list : Steps parseList false := by
  intro s o
  unfold parseList
  rcases rest_cases s o with ⟨h, e⟩ | ⟨h, e⟩
  · exact .inl ⟨h, P.bind_panic e⟩
  · right
    rw [P.bind_ok e]
    simp only [Bool.false_eq_true, if_false, List.length_drop, Nat.add_zero]
    by_cases hc : s.data.length < o + 2
    · left
      rw [if_pos (by omega)]
      exact ⟨h, hc, _, rfl⟩
    · right
      rw [if_neg (by omega)]
      obtain ⟨n, hn, hl⟩ := u16_lenAt s o (by omega)
      rw [P.bind_ok hn, ← hl]
      unfold parseItems Slice.sub Slice.cap
      by_cases hb : (s.data ++ s.spare).length < o + 2 + n.toNat
      · left
        refine ⟨by omega, hb, ?_⟩
        rw [if_neg (by simp at hb; omega)]
        rfl
      · right
        refine ⟨by omega, by omega, ?_⟩
        rw [if_pos (by simp at hb; omega)]
        rw [Res.ok_bind]
        have hi := fun (q sp : Bytes) => items_eq (q.length + 1) q.length [] q sp (by omega) (Nat.le_refl _)
        simp only [List.nil_append, List.length_nil] at hi
        exact ⟨_, by rw [hi]; rfl⟩

theorem Steps.bind {α β : Type} {p : P α} {text : Bool} (hp : Steps p text) {s : Slice} {ks : List (Bool × Bool)}
    {f : α → P β} (c : Bool) (d : α)
    (hf : ∀ v o, f v s o = .panic ↔ crashes (s.data ++ s.spare) s.data.length ks o) (o : Nat) :
    (P.opt c p d >>= f) s o = .panic ↔ crashes (s.data ++ s.spare) s.data.length ((c, text) :: ks) o := by
  cases c with
  | false => exact hf d o
  | true =>
    rw [P.opt_true]
    unfold crashes
    rw [if_pos rfl]
    rcases hp s o with ⟨h, e⟩ | ⟨h1, h2, x, e⟩ | ⟨h1, h2, e⟩ | ⟨h1, h2, v, e⟩
    · rw [P.bind_panic e]; exact iff_of_true rfl (.inl h)
    · rw [P.bind_err e]
      refine iff_of_false (fun h => nomatch h) ?_
      rintro (h | h) <;> omega
    · rw [P.bind_panic e]; exact iff_of_true rfl (.inr ⟨h1, .inl h2⟩)
    · rw [P.bind_ok e, hf]
      constructor
      · intro h; exact .inr ⟨h1, .inr h⟩
      · rintro (h | ⟨_, h | h⟩)
        · exfalso
          cases text <;> simp at h1 <;> omega
        · omega
        · exact h

end PFDContents
open PFDContents

/-- C41, exact for PFD Contents. -/
theorem C41_PFDContents_exact (s : Slice) : PFDContents.codec.parse s = .panic ↔
    ∃ fl x r, s.data = fl :: x :: r ∧ crashes (s.data ++ s.spare) s.data.length
      [(bit fl 0, true), (bit fl 1, true), (bit fl 2, true), (bit fl 3, true), (bit fl 4, true),
        (bit fl 5, false), (bit fl 6, false), (bit fl 7, false)] 2 := by
  show (P.minLen 2 >>= _).run s = _ ↔ _
  rw [P.run_minLen_panic]
  by_cases h2 : 2 ≤ s.data.length
  · obtain ⟨fl, x, r, hs⟩ : ∃ fl x r, s.data = fl :: x :: r := by
      match s.data, h2 with
      | fl :: x :: r, _ => exact ⟨fl, x, r, rfl⟩
    have hp : P.peek 0 s 0 = .ok (fl, 0) := by
      unfold P.peek Slice.idx
      rw [hs]
      rfl
    rw [P.bind_ok hp, P.bind_ok (a := ()) (o' := 2) rfl]
    rw [steps_text.bind (ks := [(hasURL fl, true), (hasDN fl, true), (hasCP fl, true), (hasDNP fl, true),
        (hasAFD fl, false), (hasAURL fl, false), (hasADNP fl, false)]) (hasFD fl) _ (fun _ o => ?_)]
    · unfold hasFD hasURL hasDN hasCP hasDNP hasAFD hasAURL hasADNP
      rw [has1stBit_eq, has2ndBit_eq, has3rdBit_eq, has4thBit_eq, has5thBit_eq, has6thBit_eq, has7thBit_eq, has8thBit_eq]
      constructor
      · rintro ⟨_, h⟩; exact ⟨fl, x, r, hs, h⟩
      · rintro ⟨fl', x', r', h, hc⟩
        rw [hs] at h
        cases h
        exact ⟨h2, hc⟩
    · refine steps_text.bind _ _ (fun _ o => ?_) o
      refine steps_text.bind _ _ (fun _ o => ?_) o
      refine steps_text.bind _ _ (fun _ o => ?_) o
      refine steps_text.bind _ _ (fun _ o => ?_) o
      refine steps_list.bind _ _ (fun _ o => ?_) o
      refine steps_list.bind _ _ (fun _ o => ?_) o
      refine steps_list.bind _ _ (fun _ o => ?_) o
      exact iff_of_false (fun h => nomatch h) (fun h => h)
  · refine iff_of_false (fun h => h2 h.1) ?_
    rintro ⟨fl, x, r, h, _⟩
    rw [h] at h2
    simp at h2

/-- The first text is declared two octets longer than what follows. -/
example : crashes [1, 0, 0, 4, 97, 98] 6 [(true, true), (false, true)] 2 := by
  unfold crashes lenAt
  simp

end Pfcp.Fields
