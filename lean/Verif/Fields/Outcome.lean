/-
Whether an encoder writes, reports an error or crashes depends on lengths alone: what it does to a fresh buffer is
reduced to arithmetic on the length of the buffer and the offset.
-/
import Verif.Fields.Misc5

namespace Pfcp

/-- A step on a buffer of `l` octets ended the way an outline says: at an offset, in an error, or in a crash. -/
inductive W.Sh (l : Nat) : Res (Slice × Nat) → Res Nat → Prop
  | ok (d : Bytes) (o : Nat) (h : d.length = l) : W.Sh l (.ok (⟨d, []⟩, o)) (.ok o)
  | err (e : GoErr) : W.Sh l (.err e) (.err e)
  | panic : W.Sh l .panic .panic

/-- On a buffer without spare capacity, `w` ends the way the outline `f` says, whatever the buffer holds. -/
def W.Shape (w : W) (f : Nat → Nat → Res Nat) : Prop := ∀ d o, W.Sh d.length (w ⟨d, []⟩ o) (f d.length o)

namespace W.Shape

theorem nop : Shape W.nop (fun _ o => .ok o) := fun _ _ => .ok _ _ rfl

theorem seq {p q : W} {f g : Nat → Nat → Res Nat} (hp : Shape p f) (hq : Shape q g) :
    Shape (p ;; q) (fun l o => f l o >>= fun o => g l o) := by
  intro d o
  have h := hp d o
  unfold W.seq
  show W.Sh d.length (p ⟨d, []⟩ o >>= fun r => q r.1 r.2) (f d.length o >>= fun o => g d.length o)
  revert h
  generalize p ⟨d, []⟩ o = x
  generalize f d.length o = y
  intro h
  cases h with
  | ok d' o' hl =>
    have := hq d' o'
    rw [hl] at this
    exact this
  | err e => exact .err e
  | panic => exact .panic

theorem minLen (n : Nat) : Shape (W.minLen n) (fun l o => if l < n then .err .unexpectedEOF else .ok o) := by
  intro d o
  unfold W.minLen
  simp only
  split
  · exact .err _
  · exact .ok _ _ rfl

theorem need (n : Nat) : Shape (W.need n) (fun l o => if l < o + n then .err .unexpectedEOF else .ok o) := by
  intro d o
  unfold W.need
  simp only
  split
  · exact .err _
  · exact .ok _ _ rfl

theorem u8 (v : UInt8) : Shape (W.u8 v) (fun l o => if o < l then .ok (o + 1) else .panic) := by
  intro d o
  unfold W.u8 Slice.set
  simp only
  split
  · exact .ok _ _ (List.length_set ..)
  · exact .panic

theorem poke (v : UInt8) : Shape (W.poke v) (fun l o => if o < l then .ok o else .panic) := by
  intro d o
  unfold W.poke Slice.set
  simp only
  split
  · exact .ok _ _ (List.length_set ..)
  · exact .panic

theorem skip (n : Nat) : Shape (W.skip n) (fun _ o => .ok (o + n)) := fun _ _ => .ok _ _ rfl

theorem overwrite_fresh (d bs : Bytes) (o : Nat) (h : o + bs.length ≤ d.length) :
    ∃ d', d'.length = d.length ∧ Slice.overwrite ⟨d, []⟩ o bs = ⟨d', []⟩ := by
  refine ⟨d.take o ++ bs ++ d.drop (o + bs.length), ?_, ?_⟩
  · simp only [List.length_append, List.length_take, List.length_drop]; omega
  · unfold Slice.overwrite
    simp only [List.append_nil]
    have hl : (d.take o ++ bs ++ d.drop (o + bs.length)).length = d.length := by
      simp only [List.length_append, List.length_take, List.length_drop]; omega
    rw [← hl, List.take_length, List.drop_length]

theorem put (bs : Bytes) : Shape (W.put bs) (fun l o => if o + bs.length ≤ l then .ok (o + bs.length) else .panic) := by
  intro d o
  unfold W.put Slice.putAt Slice.cap
  simp only [List.length_nil, Nat.add_zero]
  by_cases h : o + bs.length ≤ d.length
  · rw [if_pos ⟨by omega, h, by omega⟩, if_pos h]
    obtain ⟨d', h1, h2⟩ := overwrite_fresh d bs o h
    rw [h2]
    exact .ok _ _ h1
  · rw [if_neg (by omega), if_neg h]
    exact .panic

theorem putStay (bs : Bytes) : Shape (W.putStay bs) (fun l o => if o + bs.length ≤ l then .ok o else .panic) := by
  intro d o
  unfold W.putStay Slice.putAt Slice.cap
  simp only [List.length_nil, Nat.add_zero]
  by_cases h : o + bs.length ≤ d.length
  · rw [if_pos ⟨by omega, h, by omega⟩, if_pos h]
    obtain ⟨d', h1, h2⟩ := overwrite_fresh d bs o h
    rw [h2]
    exact .ok _ _ h1
  · rw [if_neg (by omega), if_neg h]
    exact .panic

theorem copy (n : Nat) (bs : Bytes) : Shape (W.copy n bs) (fun l o => if o + n ≤ l then .ok (o + n) else .panic) := by
  intro d o
  unfold W.copy Slice.copyAt Slice.cap
  simp only [List.length_nil, Nat.add_zero]
  by_cases h : o + n ≤ d.length
  · rw [if_pos ⟨by omega, h⟩, if_pos h]
    obtain ⟨d', h1, h2⟩ := overwrite_fresh d (bs.take (o + n - o)) o (by rw [List.length_take]; omega)
    rw [h2]
    exact .ok _ _ h1
  · rw [if_neg (by omega), if_neg h]
    exact .panic

theorem boom : Shape Fields.W.boom (fun _ _ => .panic) := fun _ _ => .panic

theorem opt {w : W} {f : Nat → Nat → Res Nat} (c : Bool) (h : Shape w f) :
    Shape (W.opt c w) (fun l o => if c then f l o else .ok o) := by
  unfold W.opt
  cases c
  · exact nop
  · exact h

theorem ite {p : Prop} [Decidable p] {w w' : W} {f g : Nat → Nat → Res Nat} (h : Shape w f) (h' : Shape w' g) :
    Shape (if p then w else w') (fun l o => if p then f l o else g l o) := by
  by_cases hp : p
  · simpa only [if_pos hp] using h
  · simpa only [if_neg hp] using h'

/-- A value is computed first. -/
theorem after {x : Res Bytes} {w : Bytes → W} {f : Bytes → Nat → Nat → Res Nat} (h : ∀ v, Shape (w v) (f v)) :
    Shape (fun b o => x >>= fun v => w v b o) (fun l o => x >>= fun v => f v l o) := by
  intro d o
  cases x with
  | ok v => exact h v d o
  | err e => exact .err e
  | panic => exact .panic

theorem ip4 (c : Bool) (a : IP) : Shape (W.ip4 c a)
    (fun l o => if c then (if l < o + 4 then .err .unexpectedEOF else .ok (o + 4)) else .ok o) := by
  unfold W.ip4
  have h := opt c ((need 4).seq (copy 4 (to4 a.val)))
  intro d o
  have := h d o
  revert this
  simp only
  cases c
  · exact id
  · simp only [if_true]
    by_cases hl : d.length < o + 4
    · simp only [if_pos hl]; exact id
    · simp only [if_neg hl, Res.ok_bind]
      rw [if_pos (by omega)]
      exact id

theorem ip16 (c : Bool) (a : IP) : Shape (W.ip16 c a)
    (fun l o => if c then (if l < o + 16 then .err .unexpectedEOF else .ok (o + 16)) else .ok o) := by
  unfold W.ip16
  have h := opt c ((need 16).seq (copy 16 (to16 a.val)))
  intro d o
  have := h d o
  revert this
  simp only
  cases c
  · exact id
  · simp only [if_true]
    by_cases hl : d.length < o + 16
    · simp only [if_pos hl]; exact id
    · simp only [if_neg hl, Res.ok_bind]
      rw [if_pos (by omega)]
      exact id

/-- How `Marshal` ends. -/
theorem marshal {w : W} {f : Nat → Nat → Res Nat} (h : Shape w f) (n : Nat) :
    (∃ o b, f n 0 = .ok o ∧ w.marshal n = .ok b ∧ b.length = n) ∨
    (∃ e, f n 0 = .err e ∧ w.marshal n = .err e) ∨ (f n 0 = .panic ∧ w.marshal n = .panic) := by
  have h := h (List.replicate n 0) 0
  unfold W.marshal W.run Slice.make
  rw [List.length_replicate] at h
  revert h
  generalize w ⟨List.replicate n 0, []⟩ 0 = x
  generalize f n 0 = y
  intro h
  cases h with
  | ok d o hl => exact Or.inl ⟨o, d, rfl, rfl, hl⟩
  | err e => exact Or.inr (Or.inl ⟨e, rfl, rfl⟩)
  | panic => exact Or.inr (Or.inr ⟨rfl, rfl⟩)

end W.Shape

/-- How a result ended, without the value. -/
inductive End
  | done
  | error (e : GoErr)
  | crash
  deriving DecidableEq

/-- The end of a result. -/
def Res.ended {α : Type} : Res α → End
  | .ok _ => .done
  | .err e => .error e
  | .panic => .crash

theorem Res.ended_done {α : Type} {x : Res α} : x.ended = .done ↔ ∃ a, x = .ok a := by
  cases x <;> simp [Res.ended]
theorem Res.ended_error {α : Type} {x : Res α} {e : GoErr} : x.ended = .error e ↔ x = .err e := by
  cases x <;> simp [Res.ended]
theorem Res.ended_crash {α : Type} {x : Res α} : x.ended = .crash ↔ x = .panic := by
  cases x <;> simp [Res.ended]

theorem W.Shape.ended {w : W} {f : Nat → Nat → Res Nat} (h : W.Shape w f) (n : Nat) :
    (w.marshal n).ended = (f n 0).ended := by
  rcases h.marshal n with ⟨o, b, h1, h2, _⟩ | ⟨e, h1, h2⟩ | ⟨h1, h2⟩ <;> rw [h1, h2] <;> rfl

/-- One step towards the outline of an encoder. -/
syntax "shape_step" : tactic
macro_rules
  | `(tactic| shape_step) => `(tactic| first
    | with_reducible exact W.Shape.u8 _
    | with_reducible exact W.Shape.put _
    | with_reducible exact W.Shape.putStay _
    | with_reducible exact W.Shape.copy _ _
    | with_reducible exact W.Shape.nop
    | with_reducible exact W.Shape.boom
    | with_reducible exact W.Shape.poke _
    | with_reducible exact W.Shape.skip _
    | with_reducible exact W.Shape.minLen _
    | with_reducible exact W.Shape.need _
    | with_reducible exact W.Shape.ip4 _ _
    | with_reducible exact W.Shape.ip16 _ _
    | with_reducible apply W.Shape.seq
    | with_reducible apply W.Shape.opt
    | with_reducible apply W.Shape.ite)

theorem W.Shape.ends {w : W} {f : Nat → Nat → Res Nat} {n : Nat} {e : End} (h : W.Shape w f) (he : (f n 0).ended = e) :
    (w.marshal n).ended = e := by rw [h.ended, he]

theorem Res.ite_bind {α β : Type} (c : Prop) [Decidable c] (x y : Res α) (f : α → Res β) :
    ((if c then x else y) >>= f) = if c then x >>= f else y >>= f := by
  split <;> rfl
theorem Res.ite_ended {α : Type} (c : Prop) [Decidable c] (x y : Res α) :
    (if c then x else y).ended = if c then x.ended else y.ended := by
  split <;> rfl
theorem Res.ok_ended {α : Type} (a : α) : (Res.ok a).ended = .done := rfl
theorem Res.err_ended {α : Type} (e : GoErr) : (Res.err e : Res α).ended = .error e := rfl
theorem Res.panic_ended {α : Type} : (Res.panic : Res α).ended = .crash := rfl

/-- Replace an encoder by its outline. -/
macro "outline" : tactic => `(tactic| (apply W.Shape.ends; · repeat shape_step))

/-- Work out an outline, once the flags are known. -/
macro "outline_flags" : tactic => `(tactic| simp only [be16_length, be32_length, be64_length, Bool.false_eq_true, if_false, if_true,
  Bool.and_true, Bool.true_and, Bool.and_false, Bool.false_and, Bool.not_true, Bool.not_false, Bool.or_true, Bool.true_or,
  Bool.or_false, Bool.false_or,
  Res.ok_bind, Res.err_bind, Res.panic_bind, Res.ite_bind, Res.ite_ended, Res.ok_ended, Res.err_ended, Res.panic_ended])
/-- What is left are comparisons of lengths. -/
macro "outline_end" : tactic => `(tactic| ((repeat' split) <;> first | rfl | (exfalso; omega)))

end Pfcp
