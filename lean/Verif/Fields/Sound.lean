/-
The converse direction for structured decoders: which bytes a successful decoder consumed, as a function of its
result. Used for the decode/re-encode property C53.
-/
import Verif.Fields.Prim

namespace Pfcp
namespace P

variable {α β : Type}

/-- Whenever `p` succeeds from an `offset` with at least `k` bytes left, with value `a`, it has consumed bytes `w` of
the slice itself with `R a w`, and leaves at least `m` bytes. -/
def Takes (k : Nat) (p : P α) (m : Nat) (R : α → Bytes → Prop) : Prop :=
  ∀ d sp o a o', o + k ≤ d.length → p ⟨d, sp⟩ o = .ok (a, o') →
    ∃ w post, d.drop o = w ++ post ∧ o' = o + w.length ∧ R a w ∧ o' + m ≤ d.length

theorem Takes.pure {k : Nat} (a : α) : Takes k (pure a : P α) k (fun b w => b = a ∧ w = []) := by
  intro d sp o b o' ho h
  cases h
  exact ⟨[], d.drop o, rfl, rfl, ⟨rfl, rfl⟩, ho⟩

theorem Takes.fail {k m : Nat} (e : GoErr) : Takes k (P.fail e : P α) m (fun _ _ => False) := by
  intro d sp o b o' ho h
  cases h

theorem Takes.bind {k m n : Nat} {p : P α} {f : α → P β} {R : α → Bytes → Prop} {S : α → β → Bytes → Prop}
    (hp : Takes k p m R) (hf : ∀ a, Takes m (f a) n (S a)) :
    Takes k (p >>= f) n (fun b w => ∃ a w1 w2, R a w1 ∧ S a b w2 ∧ w = w1 ++ w2) := by
  intro d sp o b o' ho h
  have h' : P.bind p f ⟨d, sp⟩ o = .ok (b, o') := h
  unfold P.bind at h'
  cases hr : p ⟨d, sp⟩ o with
  | panic => rw [hr] at h'; cases h'
  | err e => rw [hr] at h'; cases h'
  | ok r =>
    obtain ⟨a, o1⟩ := r
    rw [hr] at h'
    simp only at h'
    obtain ⟨w1, post1, e1, e2, r1, hl⟩ := hp d sp o a o1 ho hr
    obtain ⟨w2, post2, e3, e4, r2, hl2⟩ := hf a d sp o1 b o' hl h'
    have e5 : d.drop o1 = post1 := by
      rw [e2, ← List.drop_drop, e1, List.drop_left]
    refine ⟨w1 ++ w2, post2, ?_, by simp only [List.length_append]; omega, ⟨a, w1, w2, r1, r2, rfl⟩, hl2⟩
    rw [e1, ← e5, e3, List.append_assoc]

theorem Takes.weaken {k m : Nat} {p : P α} {R S : α → Bytes → Prop} (h : Takes k p m R)
    (hs : ∀ a w, R a w → S a w) : Takes k p m S := by
  intro d sp o b o' ho hh
  obtain ⟨w, post, e1, e2, r, e3⟩ := h d sp o b o' ho hh
  exact ⟨w, post, e1, e2, hs _ _ r, e3⟩

theorem Takes.relax {k k' m m' : Nat} {p : P α} {R : α → Bytes → Prop} (h : Takes k p m R) (hk : k ≤ k')
    (hm : m' ≤ m) : Takes k' p m' R := by
  intro d sp o b o' ho hh
  obtain ⟨w, post, e1, e2, r, e3⟩ := h d sp o b o' (by omega) hh
  exact ⟨w, post, e1, e2, r, by omega⟩

theorem Takes.need {k n : Nat} : Takes k (P.need n) n (fun _ w => w = []) := by
  intro d sp o b o' ho h
  unfold P.need at h
  simp only at h
  split at h
  · cases h
  · cases h; exact ⟨[], d.drop o, rfl, rfl, rfl, by omega⟩

theorem Takes.minLen {k n : Nat} : Takes k (P.minLen n) k (fun _ w => w = []) := by
  intro d sp o b o' ho h
  unfold P.minLen at h
  simp only at h
  split at h
  · cases h
  · cases h; exact ⟨[], d.drop o, rfl, rfl, rfl, by omega⟩

theorem Takes.opt {k m : Nat} {c : Bool} {p : P α} {d : α} {R : α → Bytes → Prop} (h : Takes k p m R)
    (hm : m ≤ k) :
    Takes k (P.opt c p d) m (fun a w => (c = true ∧ R a w) ∨ (c = false ∧ a = d ∧ w = [])) := by
  unfold P.opt
  cases c
  · exact ((Takes.pure d).relax (Nat.le_refl _) hm).weaken fun a w h => Or.inr ⟨rfl, h.1, h.2⟩
  · exact h.weaken fun a w h => Or.inl ⟨rfl, h⟩

theorem Takes.optIf {k : Nat} {c : Bool} {p : P α} {d : α} {e : α → Bytes}
    (h : Takes k p 0 (fun a w => w = e a)) :
    Takes k (P.opt c p d) 0 (fun a w => w = if c then e a else []) := by
  unfold P.opt
  cases c
  · exact ((Takes.pure d).relax (Nat.le_refl _) (Nat.zero_le _)).weaken fun a w h => h.2
  · exact h.weaken fun a w h => by simpa using h

theorem Takes.ite {k m : Nat} {c : Prop} [Decidable c] {p q : P α} {R S : α → Bytes → Prop}
    (hp : Takes k p m R) (hq : Takes k q m S) :
    Takes k (if c then p else q) m (fun a w => (c ∧ R a w) ∨ (¬ c ∧ S a w)) := by
  split
  · exact hp.weaken fun a w h => Or.inl ⟨‹_›, h⟩
  · exact hq.weaken fun a w h => Or.inr ⟨‹_›, h⟩

theorem Takes.u8 {k : Nat} : Takes (k + 1) P.u8 k (fun x w => w = [x]) := by
  intro d sp o b o' ho h
  unfold P.u8 Slice.idx at h
  simp only at h
  cases hx : d[o]? with
  | none => rw [hx] at h; cases h
  | some x =>
    rw [hx] at h
    cases h
    obtain ⟨hl, hx'⟩ := List.getElem?_eq_some_iff.1 hx
    refine ⟨[b], d.drop (o + 1), ?_, rfl, rfl, by omega⟩
    rw [List.drop_eq_getElem_cons hl, hx']
    rfl

theorem Takes.bytes {k : Nat} (n : Nat) : Takes (k + n) (P.bytes n) k (fun x w => w = x ∧ x.length = n) := by
  intro d sp o b o' ho h
  unfold P.bytes at h
  rw [sub_data _ _ _ _ (by omega) (by omega)] at h
  cases h
  refine ⟨(d.drop o).take n, (d.drop o).drop n, (List.take_append_drop _ _).symm, ?_, ⟨?_, ?_⟩, by omega⟩
  · simp only [List.length_take, List.length_drop]; omega
  · show _ = List.drop o (List.take (o + n) d)
    rw [List.take_drop, Nat.add_comm]
  · simp only [List.length_take, List.length_drop]; omega

theorem Takes.u16 {k : Nat} : Takes (k + 2) P.u16 k (fun x w => w = be16 x) := by
  refine (Takes.bind (Takes.bytes 2) (fun x => Takes.pure (dec16 x))).weaken ?_
  rintro a w ⟨x, w1, w2, ⟨rfl, h⟩, ⟨rfl, rfl⟩, rfl⟩
  rw [be16_dec16 _ h, List.append_nil]
theorem Takes.u32 {k : Nat} : Takes (k + 4) P.u32 k (fun x w => w = be32 x) := by
  refine (Takes.bind (Takes.bytes 4) (fun x => Takes.pure (dec32 x))).weaken ?_
  rintro a w ⟨x, w1, w2, ⟨rfl, h⟩, ⟨rfl, rfl⟩, rfl⟩
  rw [be32_dec32 _ h, List.append_nil]
theorem Takes.u64 {k : Nat} : Takes (k + 8) P.u64 k (fun x w => w = be64 x) := by
  refine (Takes.bind (Takes.bytes 8) (fun x => Takes.pure (dec64 x))).weaken ?_
  rintro a w ⟨x, w1, w2, ⟨rfl, h⟩, ⟨rfl, rfl⟩, rfl⟩
  rw [be64_dec64 _ h, List.append_nil]

theorem Takes.rest {k : Nat} {α : Type} {f : Bytes → α} :
    ∀ d sp o a o', o + k ≤ d.length → (P.rest >>= fun x => Pure.pure (f x) : P α) ⟨d, sp⟩ o = .ok (a, o') →
      a = f (d.drop o) := by
  intro d sp o a o' ho h
  have h' : P.bind P.rest (fun x => Pure.pure (f x)) ⟨d, sp⟩ o = .ok (a, o') := h
  unfold P.bind P.rest Slice.subFrom Slice.len at h'
  simp only at h'
  rw [sub_data _ _ _ _ (by omega) (by omega)] at h'
  simp only [Res.ok_bind, List.take_length] at h'
  cases h'
  rfl

theorem Takes.field {k : Nat} (n : Nat) : Takes k (P.field n) 0 (fun x w => w = x ∧ x.length = n) := by
  have hb := Takes.bytes (k := 0) n
  rw [Nat.zero_add] at hb
  refine (Takes.bind Takes.need (fun _ => hb)).weaken ?_
  rintro a w ⟨_, w1, w2, rfl, ⟨rfl, h⟩, rfl⟩
  exact ⟨rfl, h⟩

theorem Takes.byte {k : Nat} : Takes k P.byte 0 (fun x w => w = [x]) := by
  refine (Takes.bind Takes.need (fun _ => Takes.u8)).weaken ?_
  rintro a w ⟨_, w1, w2, rfl, rfl, rfl⟩
  rfl

theorem Takes.f16 {k : Nat} : Takes k P.f16 0 (fun x w => w = be16 x) := by
  refine (Takes.bind (Takes.field 2) (fun x => Takes.pure (dec16 x))).weaken ?_
  rintro a w ⟨x, w1, w2, ⟨rfl, h⟩, ⟨rfl, rfl⟩, rfl⟩
  rw [be16_dec16 _ h, List.append_nil]
theorem Takes.f32 {k : Nat} : Takes k P.f32 0 (fun x w => w = be32 x) := by
  refine (Takes.bind (Takes.field 4) (fun x => Takes.pure (dec32 x))).weaken ?_
  rintro a w ⟨x, w1, w2, ⟨rfl, h⟩, ⟨rfl, rfl⟩, rfl⟩
  rw [be32_dec32 _ h, List.append_nil]
theorem Takes.f64 {k : Nat} : Takes k P.f64 0 (fun x w => w = be64 x) := by
  refine (Takes.bind (Takes.field 8) (fun x => Takes.pure (dec64 x))).weaken ?_
  rintro a w ⟨x, w1, w2, ⟨rfl, h⟩, ⟨rfl, rfl⟩, rfl⟩
  rw [be64_dec64 _ h, List.append_nil]
theorem Takes.ip {k : Nat} (n : Nat) : Takes k (P.ip n) 0 (fun x w => x = some w ∧ w.length = n) := by
  refine (Takes.bind (Takes.field n) (fun x => Takes.pure (some x))).weaken ?_
  rintro a w ⟨x, w1, w2, ⟨rfl, h⟩, ⟨rfl, rfl⟩, rfl⟩
  simp [h]

/-- One step of a `Takes` proof; leaves the strongest relation. -/
macro "takes_step" : tactic => `(tactic| first
  | with_reducible exact P.Takes.pure _
  | with_reducible exact P.Takes.fail _
  | with_reducible exact P.Takes.f16
  | with_reducible exact P.Takes.f32
  | with_reducible exact P.Takes.f64
  | with_reducible exact P.Takes.ip _
  | with_reducible exact P.Takes.field _
  | with_reducible exact P.Takes.byte
  | with_reducible exact P.Takes.u8
  | with_reducible exact P.Takes.u16
  | with_reducible exact P.Takes.u32
  | with_reducible exact P.Takes.u64
  | with_reducible exact P.Takes.bytes _
  | with_reducible exact P.Takes.need
  | with_reducible exact P.Takes.minLen
  | with_reducible exact P.Takes.optIf P.Takes.f16
  | with_reducible exact P.Takes.optIf P.Takes.f32
  | with_reducible exact P.Takes.optIf P.Takes.f64
  | with_reducible exact P.Takes.optIf P.Takes.byte
  | with_reducible apply P.Takes.opt
  | with_reducible apply P.Takes.bind
  | with_reducible apply P.Takes.ite
  | exact Nat.zero_le _
  | exact Nat.le_refl _
  | intro _)

/-- Proves `Takes p ?R`. -/
macro "takes" : tactic => `(tactic| repeat' takes_step)

theorem peel {w X : Bytes} {e : α → Bytes} {S : α → Bytes → Prop}
    (h : ∃ a w1 w2, w1 = e a ∧ S a w2 ∧ w = w1 ++ w2) (k : ∀ a w2, S a w2 → e a ++ w2 = X) : w = X := by
  obtain ⟨a, _, w2, rfl, h2, rfl⟩ := h
  exact k a w2 h2

theorem peel' {pre w X : Bytes} {e : α → Bytes} {S : α → Bytes → Prop}
    (h : ∃ a w1 w2, w1 = e a ∧ S a w2 ∧ w = w1 ++ w2) (k : ∀ a w2, S a w2 → pre ++ e a ++ w2 = X) :
    pre ++ w = X := by
  obtain ⟨a, _, w2, rfl, h2, rfl⟩ := h
  rw [← List.append_assoc]
  exact k a w2 h2

/-- Proves `w = enc a` from a hypothesis obtained from `takes`, once `enc` is unfolded. -/
macro "takes_done" h:ident : tactic => `(tactic|
  (replace $h:ident := $h:ident
   refine P.peel $h ?_
   clear $h
   intro _ _ $h:ident
   repeat (refine P.peel' $h ?_; clear $h; intro _ _ $h:ident)
   have e1 := And.left $h
   have e2 := And.right $h
   clear $h
   subst e1 e2
   simp only [List.append_assoc, List.nil_append, List.append_nil]))

theorem Takes.run' {n m : Nat} {f : Unit → P α} {R : α → Bytes → Prop} (h : Takes n (f ()) m R) (s : Slice) (a : α)
    (hp : (P.minLen n >>= f).run s = .ok a) : ∃ w post, s.data = w ++ post ∧ R a w ∧ n ≤ s.data.length := by
  obtain ⟨d, sp⟩ := s
  unfold P.run at hp
  have hb : (P.minLen n >>= f) ⟨d, sp⟩ 0 = P.bind (P.minLen n) f ⟨d, sp⟩ 0 := rfl
  rw [hb] at hp
  unfold P.bind P.minLen at hp
  simp only at hp ⊢
  by_cases hl : d.length < n
  · rw [if_pos hl] at hp; cases hp
  · rw [if_neg hl] at hp
    simp only at hp
    cases hr : f () ⟨d, sp⟩ 0 with
    | panic => rw [hr] at hp; cases hp
    | err e => rw [hr] at hp; cases hp
    | ok r =>
      obtain ⟨b, o'⟩ := r
      rw [hr] at hp
      cases hp
      obtain ⟨w, post, e1, e2, e3, e4⟩ := h d sp 0 a o' (by omega) hr
      exact ⟨w, post, by simpa using e1, e3, by omega⟩

/-- A decoder that consumes the encoding `e` of its result. -/
theorem Takes.run {n m : Nat} {f : Unit → P α} {e : α → Bytes} (h : Takes n (f ()) m (fun a w => w = e a)) (s : Slice)
    (a : α) (hp : (P.minLen n >>= f).run s = .ok a) : ∃ post, s.data = e a ++ post := by
  obtain ⟨w, post, e1, rfl, _⟩ := h.run' s a hp
  exact ⟨post, e1⟩

end P

namespace Codec

variable {α : Type}

/-- Whatever the decoder accepts starts with the encoding of what it returned. -/
def Lossless (c : Codec α) : Prop :=
  ∀ s v, c.parse s = .ok v → ∃ w post, c.marshal v = .ok w ∧ s.data = w ++ post

end Codec
end Pfcp
