/-
Small programming notations for the `XxxFields` codecs of /repo/ie: a reader of a byte slice with a running
`offset`, and a writer into one. Each primitive is one Go expression or statement that occurs in those files, with
its bounds check: `b[i]` against the length, `b[i:j]` against the capacity.
-/
import Verif.Utils

namespace Pfcp

/-! ### Reading -/

/-- A piece of an `UnmarshalBinary`: takes the slice `b` and `offset`, returns a value and the new `offset`. -/
def P (α : Type) : Type := Slice → Nat → Res (α × Nat)

namespace P

variable {α β : Type}

protected def pure (a : α) : P α := fun _ o => .ok (a, o)
protected def bind (p : P α) (f : α → P β) : P β := fun s o =>
  match p s o with
  | .ok (a, o') => f a s o'
  | .err e => .err e
  | .panic => .panic

instance : Monad P where
  pure := P.pure
  bind := P.bind

/-- The whole function: `offset` starts at 0 and is dropped at the end. -/
def run (p : P α) (s : Slice) : Res α :=
  match p s 0 with
  | .ok (a, _) => .ok a
  | .err e => .err e
  | .panic => .panic

/-- `return err` -/
def fail (e : GoErr) : P α := fun _ _ => .err e
/-- a run-time panic -/
def boom : P α := fun _ _ => .panic
/-- `l`, i.e. `len(b)` -/
def len : P Nat := fun s o => .ok (s.data.length, o)
/-- `offset` -/
def off : P Nat := fun _ o => .ok (o, o)
/-- `offset += n` -/
def skip (n : Nat) : P Unit := fun _ o => .ok ((), o + n)
/-- `if l < n { return io.ErrUnexpectedEOF }` -/
def minLen (n : Nat) : P Unit := fun s o =>
  if s.data.length < n then .err .unexpectedEOF else .ok ((), o)
/-- `if l < offset+n { return io.ErrUnexpectedEOF }` -/
def need (n : Nat) : P Unit := fun s o =>
  if s.data.length < o + n then .err .unexpectedEOF else .ok ((), o)
/-- `b[offset+i]` -/
def peek (i : Nat) : P UInt8 := fun s o => (s.idx (o + i)) >>= fun x => .ok (x, o)
/-- `b[offset]; offset++` -/
def u8 : P UInt8 := fun s o => (s.idx o) >>= fun x => .ok (x, o + 1)
/-- `b[offset:offset+n]` -/
def peekBytes (n : Nat) : P Bytes := fun s o => (s.sub o (o + n)) >>= fun x => .ok (x.data, o)
/-- `b[offset:offset+n]; offset += n` -/
def bytes (n : Nat) : P Bytes := fun s o => (s.sub o (o + n)) >>= fun x => .ok (x.data, o + n)
/-- `b[offset:]` -/
def rest : P Bytes := fun s o => (s.subFrom o) >>= fun x => .ok (x.data, o)
/-- `if l < offset+n { return io.ErrUnexpectedEOF }; b[offset:offset+n]; offset += n` -/
def field (n : Nat) : P Bytes := need n >>= fun _ => bytes n
/-- `if l < offset+1 { return io.ErrUnexpectedEOF }; b[offset]; offset++` -/
def byte : P UInt8 := need 1 >>= fun _ => u8
/-- `if l < offset+2 { return io.ErrUnexpectedEOF }; binary.BigEndian.Uint16(b[offset:offset+2]); offset += 2` -/
def f16 : P UInt16 := field 2 >>= fun x => pure (dec16 x)
/-- the same with 4 bytes -/
def f32 : P UInt32 := field 4 >>= fun x => pure (dec32 x)
/-- the same with 8 bytes -/
def f64 : P UInt64 := field 8 >>= fun x => pure (dec64 x)
/-- `binary.BigEndian.Uint16(b[offset:offset+2]); offset += 2` without a check -/
def u16 : P UInt16 := bytes 2 >>= fun x => pure (dec16 x)
def u32 : P UInt32 := bytes 4 >>= fun x => pure (dec32 x)
def u64 : P UInt64 := bytes 8 >>= fun x => pure (dec64 x)
/-- A byte slice field: the value is never nil. -/
def ip (n : Nat) : P (Option Bytes) := field n >>= fun x => pure (some x)
/-- `if c { x = p }` where `x` was `d` before. -/
def opt (c : Bool) (p : P α) (d : α) : P α := if c then p else pure d

/-! #### Good: never panics, never looks behind the slice -/

/-- If at least `k` bytes are left at `offset`, then `p` does not panic, does not depend on the bytes behind
the slice, and leaves an `offset` with at least `m` bytes left. -/
def Good (k : Nat) (p : P α) (m : Nat) : Prop :=
  ∀ d sp o, o + k ≤ d.length → p ⟨d, sp⟩ o ≠ .panic ∧ (∀ sp', p ⟨d, sp⟩ o = p ⟨d, sp'⟩ o) ∧
    ∀ a o', p ⟨d, sp⟩ o = .ok (a, o') → o' + m ≤ d.length

theorem Good.pure {k m : Nat} (a : α) (h : m ≤ k) : Good k (pure a : P α) m := by
  intro d sp o ho
  refine ⟨?_, fun _ => rfl, ?_⟩
  · intro h; cases h
  · intro a' o' h; cases h; omega

theorem Good.fail {k m : Nat} (e : GoErr) : Good k (P.fail e : P α) m := by
  intro d sp o ho
  refine ⟨?_, fun _ => rfl, ?_⟩
  · intro h; cases h
  · intro a' o' h; cases h

theorem Good.bind {k m n : Nat} {p : P α} {f : α → P β} (hp : Good k p m) (hf : ∀ a, Good m (f a) n) :
    Good k (p >>= f) n := by
  intro d sp o ho
  obtain ⟨h1, h2, h3⟩ := hp d sp o ho
  show P.bind p f ⟨d, sp⟩ o ≠ _ ∧ (∀ sp', P.bind p f ⟨d, sp⟩ o = P.bind p f ⟨d, sp'⟩ o) ∧
    ∀ a o', P.bind p f ⟨d, sp⟩ o = .ok (a, o') → _
  unfold P.bind
  cases hr : p ⟨d, sp⟩ o with
  | panic => exact absurd hr h1
  | err e =>
    refine ⟨by simp, ?_, by simp⟩
    intro sp'
    rw [← h2 sp', hr]
  | ok r =>
    obtain ⟨a, o'⟩ := r
    obtain ⟨g1, g2, g3⟩ := hf a d sp o' (h3 a o' hr)
    refine ⟨g1, ?_, g3⟩
    intro sp'
    rw [← h2 sp', hr]
    exact g2 sp'

theorem Good.weaken {k k' m m' : Nat} {p : P α} (h : Good k p m) (hk : k ≤ k') (hm : m' ≤ m) :
    Good k' p m' := by
  intro d sp o ho
  obtain ⟨h1, h2, h3⟩ := h d sp o (by omega)
  refine ⟨h1, h2, ?_⟩
  intro a o' hr
  have := h3 a o' hr
  omega

theorem Good.ite {k m : Nat} {c : Prop} [Decidable c] {p q : P α} (hp : c → Good k p m)
    (hq : ¬ c → Good k q m) : Good k (if c then p else q) m := by
  split
  · exact hp ‹_›
  · exact hq ‹_›

theorem Good.opt {k m : Nat} {c : Bool} {p : P α} {d : α} (hp : Good k p m) (h : m ≤ k) :
    Good k (P.opt c p d) m := by
  unfold P.opt
  split
  · exact hp
  · exact Good.pure d h

theorem Good.need {k : Nat} (n : Nat) : Good k (P.need n) n := by
  intro d sp o ho
  unfold P.need
  simp only
  refine ⟨by split <;> simp, fun _ => trivial, ?_⟩
  intro a o' h
  split at h
  · cases h
  · cases h; omega

theorem Good.need_keep {k : Nat} (n : Nat) : Good k (P.need n) k := by
  intro d sp o ho
  unfold P.need
  simp only
  refine ⟨by split <;> simp, fun _ => trivial, ?_⟩
  intro a o' h
  split at h
  · cases h
  · cases h; omega

theorem Good.len {k : Nat} : Good k P.len k := by
  intro d sp o ho
  refine ⟨(by intro h; cases h), fun _ => rfl, ?_⟩
  intro a o' h; cases h; exact ho

theorem Good.off {k : Nat} : Good k P.off k := by
  intro d sp o ho
  refine ⟨(by intro h; cases h), fun _ => rfl, ?_⟩
  intro a o' h; cases h; exact ho

theorem Good.peek {k : Nat} (i : Nat) (h : i < k) : Good k (P.peek i) k := by
  intro d sp o ho
  unfold P.peek Slice.idx
  simp only
  rw [List.getElem?_eq_getElem (by omega : o + i < d.length)]
  refine ⟨by simp, fun _ => trivial, ?_⟩
  intro a o' h; cases h; exact ho

theorem Good.u8 {k : Nat} : Good (k + 1) P.u8 k := by
  intro d sp o ho
  unfold P.u8 Slice.idx
  simp only
  rw [List.getElem?_eq_getElem (by omega : o < d.length)]
  refine ⟨by simp, fun _ => trivial, ?_⟩
  intro a o' h; cases h; omega

theorem sub_data (d sp : Bytes) (lo hi : Nat) (h : lo ≤ hi) (h2 : hi ≤ d.length) :
    Slice.sub ⟨d, sp⟩ lo hi = .ok ⟨(d.take hi).drop lo, d.drop hi ++ sp⟩ := by
  unfold Slice.sub Slice.cap
  simp only
  rw [if_pos (by omega), List.take_append_of_le_length h2, List.drop_append_of_le_length h2]

theorem Good.bytes {k : Nat} (n : Nat) : Good (k + n) (P.bytes n) k := by
  intro d sp o ho
  unfold P.bytes
  have : ∀ sp', Slice.sub ⟨d, sp'⟩ o (o + n) = .ok ⟨(d.take (o + n)).drop o, d.drop (o + n) ++ sp'⟩ :=
    fun sp' => sub_data d sp' o (o + n) (by omega) (by omega)
  rw [this sp]
  refine ⟨by simp, fun sp' => by simp only [this sp', Res.ok_bind], ?_⟩
  intro a o' h; cases h; omega

theorem Good.peekBytes {k : Nat} (n : Nat) (hn : n ≤ k) : Good k (P.peekBytes n) k := by
  intro d sp o ho
  unfold P.peekBytes
  have : ∀ sp', Slice.sub ⟨d, sp'⟩ o (o + n) = .ok ⟨(d.take (o + n)).drop o, d.drop (o + n) ++ sp'⟩ :=
    fun sp' => sub_data d sp' o (o + n) (by omega) (by omega)
  rw [this sp]
  refine ⟨by simp, fun sp' => by simp only [this sp', Res.ok_bind], ?_⟩
  intro a o' h; cases h; omega

theorem Good.rest {k : Nat} : Good k P.rest k := by
  intro d sp o ho
  unfold P.rest Slice.subFrom Slice.len
  have : ∀ sp', Slice.sub ⟨d, sp'⟩ o d.length = .ok ⟨(d.take d.length).drop o, d.drop d.length ++ sp'⟩ :=
    fun sp' => sub_data d sp' o d.length (by omega) (by omega)
  simp only [this]
  refine ⟨by simp, fun sp' => by simp only [Res.ok_bind], ?_⟩
  intro a o' h; cases h; omega

theorem Good.field {k : Nat} (n : Nat) : Good k (P.field n) 0 := by
  refine Good.bind (Good.need n) (fun _ => ?_)
  have := Good.bytes (k := 0) n
  rwa [Nat.zero_add] at this

theorem Good.byte {k : Nat} : Good k P.byte 0 :=
  Good.bind (Good.need 1) (fun _ => Good.u8)

theorem Good.f16 {k : Nat} : Good k P.f16 0 :=
  Good.bind (Good.field 2) fun _ => Good.pure _ (Nat.le_refl _)
theorem Good.f32 {k : Nat} : Good k P.f32 0 :=
  Good.bind (Good.field 4) fun _ => Good.pure _ (Nat.le_refl _)
theorem Good.f64 {k : Nat} : Good k P.f64 0 :=
  Good.bind (Good.field 8) fun _ => Good.pure _ (Nat.le_refl _)
theorem Good.ip {k n : Nat} : Good k (P.ip n) 0 :=
  Good.bind (Good.field n) fun _ => Good.pure _ (Nat.le_refl _)
theorem Good.u16 {k : Nat} : Good (k + 2) P.u16 k :=
  Good.bind (Good.bytes 2) fun _ => Good.pure _ (Nat.le_refl _)
theorem Good.u32 {k : Nat} : Good (k + 4) P.u32 k :=
  Good.bind (Good.bytes 4) fun _ => Good.pure _ (Nat.le_refl _)
theorem Good.u64 {k : Nat} : Good (k + 8) P.u64 k :=
  Good.bind (Good.bytes 8) fun _ => Good.pure _ (Nat.le_refl _)

/-- From the start of the slice. -/
def Good0 (p : P α) : Prop :=
  ∀ d sp, p ⟨d, sp⟩ 0 ≠ .panic ∧ ∀ sp', p ⟨d, sp⟩ 0 = p ⟨d, sp'⟩ 0

theorem Good0.minLen {n m : Nat} {f : Unit → P β} (hf : Good n (f ()) m) :
    Good0 (P.minLen n >>= f) := by
  intro d sp
  show P.bind _ _ _ _ ≠ _ ∧ ∀ sp', P.bind _ _ _ _ = P.bind _ _ _ _
  unfold P.bind P.minLen
  simp only
  by_cases h : d.length < n
  · simp [h]
  · simp only [h, if_false]
    obtain ⟨h1, h2, _⟩ := hf d sp 0 (by omega)
    exact ⟨h1, h2⟩

theorem Good.good0 {p : P α} {m : Nat} (h : Good 0 p m) : Good0 p := by
  intro d sp
  obtain ⟨h1, h2, _⟩ := h d sp 0 (by omega)
  exact ⟨h1, h2⟩

theorem Good0.run {p : P α} (h : Good0 p) : (∀ s, p.run s ≠ .panic) ∧
    ∀ d sp sp', p.run ⟨d, sp⟩ = p.run ⟨d, sp'⟩ := by
  constructor
  · rintro ⟨d, sp⟩
    unfold P.run
    have := (h d sp).1
    split <;> simp_all
  · intro d sp sp'
    unfold P.run
    rw [(h d sp).2 sp']

/-! #### Reads: what `p` makes of given bytes -/

/-- Standing at bytes `w`, whatever precedes and follows, `p` consumes exactly `w` and returns `a`. -/
def Reads (p : P α) (w : Bytes) (a : α) : Prop :=
  ∀ pre post sp, p ⟨pre ++ w ++ post, sp⟩ pre.length = .ok (a, pre.length + w.length)

theorem Reads.pure (a : α) : Reads (pure a : P α) [] a := by
  intro pre post sp; rfl

theorem Reads.bind {p : P α} {f : α → P β} {w w' : Bytes} {a : α} {b : β} (hp : Reads p w a)
    (hf : Reads (f a) w' b) : Reads (p >>= f) (w ++ w') b := by
  intro pre post sp
  show P.bind p f _ _ = _
  unfold P.bind
  have h1 := hp pre (w' ++ post) sp
  have h2 := hf (pre ++ w) post sp
  simp only [List.append_assoc, List.length_append] at h1 h2 ⊢
  rw [h1]
  simp only
  rw [h2, Nat.add_assoc]

theorem Reads.bind0 {p : P α} {f : α → P β} {w : Bytes} {a : α} {b : β} (hp : Reads p [] a)
    (hf : Reads (f a) w b) : Reads (p >>= f) w b := Reads.bind hp hf

theorem Reads.need {n : Nat} {f : Unit → P β} {w : Bytes} {b : β} (h : n ≤ w.length)
    (hf : Reads (f ()) w b) : Reads (P.need n >>= f) w b := by
  intro pre post sp
  show P.bind _ f _ _ = _
  unfold P.bind P.need
  simp only
  rw [if_neg (by simp only [List.length_append]; omega)]
  exact hf pre post sp

theorem Reads.bytes (w : Bytes) {n : Nat} (h : w.length = n) : Reads (P.bytes n) w w := by
  intro pre post sp
  subst h
  unfold P.bytes
  rw [sub_data _ _ _ _ (by omega) (by simp only [List.length_append]; omega)]
  simp [List.take_append, List.drop_append]

theorem Reads.u8 (x : UInt8) : Reads P.u8 [x] x := by
  intro pre post sp
  unfold P.u8 Slice.idx
  simp

theorem Reads.field (w : Bytes) {n : Nat} (h : w.length = n) : Reads (P.field n) w w :=
  Reads.need (by omega) (Reads.bytes w h)

theorem Reads.byte (x : UInt8) : Reads P.byte [x] x :=
  Reads.need (by simp) (Reads.u8 x)

theorem Reads.opt {c : Bool} {p : P α} {d a : α} {w : Bytes} (h : c = true → Reads p w a)
    (hd : c = false → w = [] ∧ a = d) : Reads (P.opt c p d) w a := by
  unfold P.opt
  cases c
  · obtain ⟨rfl, rfl⟩ := hd rfl
    exact Reads.pure _
  · exact h rfl

theorem Reads.map {p : P α} {w : Bytes} {a : α} (f : α → β) (hp : Reads p w a) :
    Reads (p >>= fun x => Pure.pure (f x)) w (f a) := by
  have := Reads.bind (f := fun x => Pure.pure (f x)) hp (Reads.pure (f a))
  rwa [List.append_nil] at this

theorem Reads.optIf {c : Bool} {p : P α} {d a : α} {w : Bytes} (h : c = true → Reads p w a)
    (hd : c = false → a = d) : Reads (P.opt c p d) (if c then w else []) a := by
  unfold P.opt
  cases c
  · rw [hd rfl]; exact Reads.pure _
  · exact h rfl

theorem Reads.optIte {c : Bool} {p : P α} {d a : α} {w : Bytes} (h : c = true → Reads p w a) :
    Reads (P.opt c p d) (if c then w else []) (if c then a else d) := by
  unfold P.opt
  cases c
  · exact Reads.pure _
  · exact h rfl

theorem Reads.f16 (v : UInt16) : Reads P.f16 (be16 v) v := by
  have := Reads.map dec16 (Reads.field (be16 v) (n := 2) (by simp))
  rwa [dec16_be16] at this
theorem Reads.f32 (v : UInt32) : Reads P.f32 (be32 v) v := by
  have := Reads.map dec32 (Reads.field (be32 v) (n := 4) (by simp))
  rwa [dec32_be32] at this
theorem Reads.f64 (v : UInt64) : Reads P.f64 (be64 v) v := by
  have := Reads.map dec64 (Reads.field (be64 v) (n := 8) (by simp))
  rwa [dec64_be64] at this
theorem Reads.u16 (v : UInt16) : Reads P.u16 (be16 v) v := by
  have := Reads.map dec16 (Reads.bytes (be16 v) (n := 2) (by simp))
  rwa [dec16_be16] at this
theorem Reads.u32 (v : UInt32) : Reads P.u32 (be32 v) v := by
  have := Reads.map dec32 (Reads.bytes (be32 v) (n := 4) (by simp))
  rwa [dec32_be32] at this
theorem Reads.u64 (v : UInt64) : Reads P.u64 (be64 v) v := by
  have := Reads.map dec64 (Reads.bytes (be64 v) (n := 8) (by simp))
  rwa [dec64_be64] at this
theorem Reads.ip (w : Bytes) {n : Nat} (h : w.length = n) : Reads (P.ip n) w (some w) :=
  Reads.map some (Reads.field w h)

/-- `return` at the end of the function. -/
theorem Reads.done {p : P α} {w : Bytes} {a b : α} (h : Reads p w a) (e : a = b) : Reads p w b := e ▸ h

/-- From the start of a slice, extra bytes after `w` are ignored. -/
theorem Reads.run {p : P α} {w : Bytes} {a : α} (h : Reads p w a) (tail sp : Bytes) :
    p.run ⟨w ++ tail, sp⟩ = .ok a := by
  have := h [] tail sp
  simp only [List.nil_append, List.length_nil] at this
  unfold P.run
  rw [this]

theorem Reads.run_minLen {n : Nat} {f : Unit → P α} {w : Bytes} {a : α} (hn : n ≤ w.length)
    (h : Reads (f ()) w a) (tail sp : Bytes) : (P.minLen n >>= f).run ⟨w ++ tail, sp⟩ = .ok a := by
  have h1 : (P.minLen n >>= f) ⟨w ++ tail, sp⟩ 0 = f () ⟨w ++ tail, sp⟩ 0 := by
    show P.bind _ f _ _ = _
    unfold P.bind P.minLen
    simp only
    rw [if_neg (by simp only [List.length_append]; omega)]
  unfold P.run
  rw [h1]
  exact Reads.run h tail sp

/-- One step of a `Reads` proof. -/
macro "reads_step" : tactic => `(tactic| first
  | with_reducible exact P.Reads.u8 _
  | with_reducible exact P.Reads.byte _
  | with_reducible exact P.Reads.u16 _
  | with_reducible exact P.Reads.u32 _
  | with_reducible exact P.Reads.u64 _
  | with_reducible exact P.Reads.f16 _
  | with_reducible exact P.Reads.f32 _
  | with_reducible exact P.Reads.f64 _
  | with_reducible apply P.Reads.bind
  | with_reducible apply P.Reads.optIte
  | exact P.Reads.pure _
  | intro _)

/-- Proves `Reads p w a` when `w` is the concatenation of the pieces that `p` reads, ending in `[]`. -/
macro "reads" : tactic => `(tactic| repeat' reads_step)

/-- One step of a `Good` proof. -/
macro "good_step" : tactic => `(tactic| first
  | with_reducible exact P.Good.pure _ (Nat.le_refl _)
  | with_reducible exact P.Good.pure _ (by omega)
  | with_reducible exact P.Good.fail _
  | with_reducible exact P.Good.f16
  | with_reducible exact P.Good.f32
  | with_reducible exact P.Good.f64
  | with_reducible exact P.Good.ip
  | with_reducible exact P.Good.field _
  | with_reducible exact P.Good.byte
  | with_reducible exact P.Good.u8
  | with_reducible exact P.Good.u16
  | with_reducible exact P.Good.u32
  | with_reducible exact P.Good.u64
  | with_reducible exact P.Good.bytes _
  | with_reducible exact P.Good.rest
  | with_reducible exact P.Good.len
  | with_reducible exact P.Good.off
  | with_reducible exact P.Good.need _
  | with_reducible apply P.Good.opt
  | with_reducible apply P.Good.bind
  | with_reducible apply P.Good.ite
  | exact Nat.zero_le _
  | exact Nat.le_refl _
  | intro _)

/-- Proves `Good k p m` for programs that check before they read. -/
macro "good" : tactic => `(tactic| repeat' good_step)

end P

/-! ### Writing -/

/-- A piece of a `MarshalTo`: takes the slice `b` and `offset`, returns both updated. -/
def W : Type := Slice → Nat → Res (Slice × Nat)

namespace W

/-- nothing -/
def nop : W := fun s o => .ok (s, o)
/-- statement sequence -/
def seq (p q : W) : W := fun s o => p s o >>= fun r => q r.1 r.2

infixr:60 " ;; " => W.seq

/-- `return err` -/
def fail (e : GoErr) : W := fun _ _ => .err e
/-- `if l < n { return io.ErrUnexpectedEOF }` -/
def minLen (n : Nat) : W := fun s o => if s.data.length < n then .err .unexpectedEOF else .ok (s, o)
/-- `if l < offset+n { return io.ErrUnexpectedEOF }` -/
def need (n : Nat) : W := fun s o => if s.data.length < o + n then .err .unexpectedEOF else .ok (s, o)
/-- `b[offset] = v; offset++` -/
def u8 (v : UInt8) : W := fun s o => s.set o v >>= fun s => .ok (s, o + 1)
/-- `binary.BigEndian.PutUintN(b[offset:offset+n], v); offset += n`, with `bs` the `n` bytes of `v`. -/
def put (bs : Bytes) : W := fun s o => s.putAt o (o + bs.length) bs >>= fun s => .ok (s, o + bs.length)
/-- `copy(b[offset:offset+n], bs); offset += n` -/
def copy (n : Nat) (bs : Bytes) : W := fun s o => s.copyAt o (o + n) bs >>= fun s => .ok (s, o + n)
/-- `if c { w }` -/
def opt (c : Bool) (w : W) : W := if c then w else nop

/-- The whole function on a given buffer. -/
def run (w : W) (s : Slice) : Res Slice := w s 0 >>= fun r => .ok r.1

/-- `b := make([]byte, n); MarshalTo(b); return b`. -/
def marshal (w : W) (n : Nat) : Res Bytes := w.run (Slice.make n) >>= fun s => .ok s.data

/-- In a buffer that is zero from `offset` on and has room, `w` leaves `bs` there and moves `offset` past it. -/
def Emits (w : W) (bs : Bytes) : Prop :=
  ∀ pre n, bs.length ≤ n → w ⟨pre ++ List.replicate n 0, []⟩ pre.length
    = .ok (⟨pre ++ bs ++ List.replicate (n - bs.length) 0, []⟩, pre.length + bs.length)

theorem Emits.nop : Emits nop [] := by
  intro pre n h
  simp [W.nop]

theorem Emits.seq {p q : W} {a b : Bytes} (hp : Emits p a) (hq : Emits q b) : Emits (p ;; q) (a ++ b) := by
  intro pre n h
  simp only [List.length_append] at h
  unfold W.seq
  rw [hp pre n (by omega), Res.ok_bind]
  simp only
  have := hq (pre ++ a) (n - a.length) (by omega)
  simp only [List.length_append] at this
  rw [this]
  simp only [List.append_assoc, List.length_append, Nat.sub_sub, Nat.add_assoc]

theorem Emits.need {n : Nat} {q : W} {b : Bytes} (hn : n ≤ b.length) (hq : Emits q b) :
    Emits (need n ;; q) b := by
  intro pre m h
  unfold W.seq W.need
  simp only
  rw [if_neg (by simp only [List.length_append, List.length_replicate]; omega), Res.ok_bind]
  exact hq pre m h

theorem Emits.u8 (v : UInt8) : Emits (u8 v) [v] := by
  intro pre n h
  simp only [List.length_cons, List.length_nil] at h
  obtain ⟨m, rfl⟩ : ∃ m, n = m + 1 := ⟨n - 1, by omega⟩
  unfold W.u8 Slice.set
  simp only [List.length_append, List.length_replicate]
  rw [if_pos (by omega), Res.ok_bind]
  simp [List.replicate_succ]

theorem overwrite_zero (pre : Bytes) (n : Nat) (bs : Bytes) (h : bs.length ≤ n) :
    Slice.overwrite ⟨pre ++ List.replicate n 0, []⟩ pre.length bs
      = ⟨pre ++ bs ++ List.replicate (n - bs.length) 0, []⟩ := by
  unfold Slice.overwrite
  simp only [List.append_nil]
  have e1 : (pre ++ List.replicate n (0 : UInt8)).take pre.length = pre := by simp
  have e2 : (pre ++ List.replicate n (0 : UInt8)).drop (pre.length + bs.length)
      = List.replicate (n - bs.length) 0 := by
    rw [List.drop_append]; simp
  rw [e1, e2]
  have e3 : (pre ++ bs ++ List.replicate (n - bs.length) (0 : UInt8)).length
      = (pre ++ List.replicate n (0 : UInt8)).length := by simp; omega
  rw [List.take_of_length_le (by omega), List.drop_of_length_le (by omega)]

theorem Emits.put (bs : Bytes) : Emits (put bs) bs := by
  intro pre n h
  unfold W.put Slice.putAt Slice.cap
  simp only [List.length_append, List.length_replicate, List.length_nil]
  rw [if_pos (by omega), Res.ok_bind, overwrite_zero pre n bs h]

theorem Emits.copy (bs : Bytes) {n : Nat} (h : bs.length = n) : Emits (copy n bs) bs := by
  intro pre m hm
  unfold W.copy Slice.copyAt Slice.cap
  simp only [List.length_append, List.length_replicate, List.length_nil]
  rw [if_pos (by omega), Res.ok_bind, List.take_of_length_le (by omega), overwrite_zero pre m bs hm, h]

/-- Copying fewer bytes than room leaves zeros. -/
theorem Emits.copy_short (bs : Bytes) {n : Nat} (h : bs.length ≤ n) :
    Emits (W.copy n bs) (bs ++ List.replicate (n - bs.length) 0) := by
  intro pre m hm
  simp only [List.length_append, List.length_replicate] at hm ⊢
  unfold W.copy Slice.copyAt Slice.cap
  simp only [List.length_append, List.length_replicate, List.length_nil]
  rw [if_pos (by omega), Res.ok_bind, List.take_of_length_le (by omega),
    overwrite_zero pre m bs (by omega)]
  have : List.replicate (n - bs.length) (0 : UInt8) ++ List.replicate (m - (bs.length + (n - bs.length))) 0
      = List.replicate (m - bs.length) 0 := by
    rw [List.replicate_append_replicate]; congr 1; omega
  simp only [List.append_assoc, this]
  rw [show bs.length + (n - bs.length) = n by omega]

theorem Emits.opt {c : Bool} {w : W} {bs : Bytes} (h : c = true → Emits w bs) (hd : c = false → bs = []) :
    Emits (W.opt c w) bs := by
  unfold W.opt
  cases c
  · rw [hd rfl]; exact Emits.nop
  · exact h rfl

theorem Emits.optIf {c : Bool} {w : W} {bs : Bytes} (h : c = true → Emits w bs) :
    Emits (W.opt c w) (if c then bs else []) := by
  unfold W.opt
  cases c
  · exact Emits.nop
  · exact h rfl

theorem Emits.tail {w : W} {a : Bytes} (h : Emits w a) : Emits w (a ++ []) := by
  rwa [List.append_nil]

/-- One step of an `Emits` proof. -/
macro "emits_step" : tactic => `(tactic| first
  | with_reducible exact W.Emits.u8 _
  | with_reducible exact W.Emits.put _
  | with_reducible exact W.Emits.nop
  | with_reducible refine W.Emits.need ?_ ?_
  | with_reducible refine W.Emits.seq ?_ ?_
  | with_reducible refine W.Emits.optIf (fun _ => ?_)
  | with_reducible refine W.Emits.copy _ ?_
  | with_reducible refine W.Emits.tail ?_)

/-- Proves `Emits w bs` when `bs` is the concatenation of the pieces that `w` writes, ending in `[]`. -/
macro "emits" : tactic => `(tactic| repeat' emits_step)

theorem Emits.marshal {w : W} {bs : Bytes} (h : Emits w bs) : w.marshal bs.length = .ok bs := by
  have := h [] bs.length (Nat.le_refl _)
  simp only [List.nil_append, List.length_nil, Nat.sub_self, List.replicate_zero, List.append_nil] at this
  unfold W.marshal W.run Slice.make
  rw [this]
  rfl

theorem Emits.marshal_minLen {w : W} {bs : Bytes} {n : Nat} (hn : n ≤ bs.length) (h : Emits w bs) :
    (W.minLen n ;; w).marshal bs.length = .ok bs := by
  have h1 : (W.minLen n ;; w) (Slice.make bs.length) 0 = w (Slice.make bs.length) 0 := by
    unfold W.seq W.minLen Slice.make
    simp only [List.length_replicate]
    rw [if_neg (by omega), Res.ok_bind]
  unfold W.marshal W.run
  rw [h1]
  exact Emits.marshal h

end W

/-! ### Claims about a codec -/

/-- The decoder and encoder of a structured element: `ParseXxxFields` and `XxxFields.Marshal`. -/
structure Codec (α : Type) where
  parse : Slice → Res α
  marshal : α → Res Bytes

namespace Codec

variable {α : Type}

/-- Decoding returns a value or an error on every slice, whatever its capacity. -/
def NoPanic (c : Codec α) : Prop := ∀ s, c.parse s ≠ .panic

/-- The result depends only on the bytes of the slice, not on those behind it. -/
def Local (c : Codec α) : Prop := ∀ d sp sp', c.parse ⟨d, sp⟩ = c.parse ⟨d, sp'⟩

/-- Encoding `v` succeeds, and decoding the result, also when followed by more bytes, gives `v'`. -/
def Yields (c : Codec α) (v v' : α) : Prop :=
  ∃ w, c.marshal v = .ok w ∧ ∀ tail sp, c.parse ⟨w ++ tail, sp⟩ = .ok v'

/-- The weaker form without trailing bytes, for elements whose last part extends to the end. -/
def YieldsExact (c : Codec α) (v v' : α) : Prop :=
  ∃ w, c.marshal v = .ok w ∧ ∀ sp, c.parse ⟨w, sp⟩ = .ok v'

/-- Encoding `v` gives the bytes `w`. -/
def Encodes (c : Codec α) (v : α) (w : Bytes) : Prop := c.marshal v = .ok w

/-- Encoding `v` succeeds. -/
def Builds (c : Codec α) (v : α) : Prop := ∃ w, c.marshal v = .ok w

end Codec

theorem ite_len (c : Bool) (l n : Nat) : (if c then l + n else l) = l + (if c then n else 0) := by
  cases c <;> simp

/-- Compares the length of an encoding with a `MarshalLen` computed step by step. -/
macro "enc_len" : tactic => `(tactic|
  (simp only [List.length_append, apply_ite List.length, be16_length, be32_length, be64_length,
    List.length_nil, List.length_cons, ite_len]
   simp only [Nat.add_assoc, Nat.add_zero, Nat.zero_add]))

/-! ### Bits, independently of the code's masks and shifts -/

/-- Bit `i` of an octet, counted from 0. -/
def bit (f : UInt8) (i : Nat) : Bool := f.toNat.testBit i

theorem has1stBit_eq (f : UInt8) : has1stBit f = bit f 0 := by
  revert f; exact forall_byte (by decide +kernel)
theorem has2ndBit_eq (f : UInt8) : has2ndBit f = bit f 1 := by
  revert f; exact forall_byte (by decide +kernel)
theorem has3rdBit_eq (f : UInt8) : has3rdBit f = bit f 2 := by
  revert f; exact forall_byte (by decide +kernel)
theorem has4thBit_eq (f : UInt8) : has4thBit f = bit f 3 := by
  revert f; exact forall_byte (by decide +kernel)
theorem has5thBit_eq (f : UInt8) : has5thBit f = bit f 4 := by
  revert f; exact forall_byte (by decide +kernel)
theorem has6thBit_eq (f : UInt8) : has6thBit f = bit f 5 := by
  revert f; exact forall_byte (by decide +kernel)
theorem has7thBit_eq (f : UInt8) : has7thBit f = bit f 6 := by
  revert f; exact forall_byte (by decide +kernel)
theorem has8thBit_eq (f : UInt8) : has8thBit f = bit f 7 := by
  revert f; exact forall_byte (by decide +kernel)

end Pfcp
