/-
Further notions for structured decoders and encoders: locality without the no-panic part (for decoders that can
panic), statements that leave `offset` behind, and addresses copied as they are.
-/
import Verif.Fields.IP

namespace Pfcp
namespace P

variable {α β : Type}

/-! #### Computing -/

theorem bind_ok {p : P α} {f : α → P β} {s : Slice} {o o' : Nat} {a : α} (h : p s o = .ok (a, o')) :
    (p >>= f) s o = f a s o' := by
  show P.bind p f s o = _
  unfold P.bind
  rw [h]
theorem bind_err {p : P α} {f : α → P β} {s : Slice} {o : Nat} {e : GoErr} (h : p s o = .err e) :
    (p >>= f) s o = .err e := by
  show P.bind p f s o = _
  unfold P.bind
  rw [h]
theorem bind_panic {p : P α} {f : α → P β} {s : Slice} {o : Nat} (h : p s o = .panic) :
    (p >>= f) s o = .panic := by
  show P.bind p f s o = _
  unfold P.bind
  rw [h]
theorem bind_pure' {a : α} {f : α → P β} : ((Pure.pure a : P α) >>= f) = f a := rfl
theorem opt_true {p : P α} {d : α} : P.opt true p d = p := rfl
theorem opt_false {p : P α} {d : α} : P.opt false p d = Pure.pure d := rfl

theorem bind_inv {p : P α} {f : α → P β} {s : Slice} {o o' : Nat} {b : β} (h : (p >>= f) s o = .ok (b, o')) :
    ∃ a o1, p s o = .ok (a, o1) ∧ f a s o1 = .ok (b, o') := by
  have h' : P.bind p f s o = .ok (b, o') := h
  unfold P.bind at h'
  cases hr : p s o with
  | panic => rw [hr] at h'; cases h'
  | err e => rw [hr] at h'; cases h'
  | ok r => rw [hr] at h'; exact ⟨r.1, r.2, rfl, h'⟩

theorem run_minLen_eq {n : Nat} {f : Unit → P β} {s : Slice} (h : n ≤ s.data.length) :
    (P.minLen n >>= f).run s = (f ()).run s := by
  unfold P.run
  rw [bind_ok (a := ()) (o' := 0) (by unfold P.minLen; rw [if_neg (by omega)])]
theorem run_minLen_err {n : Nat} {f : Unit → P β} {s : Slice} (h : s.data.length < n) :
    (P.minLen n >>= f).run s = .err .unexpectedEOF := by
  unfold P.run
  rw [bind_err (e := .unexpectedEOF) (by unfold P.minLen; rw [if_pos h])]
theorem run_ok {p : P α} {s : Slice} {a : α} {o : Nat} (h : p s 0 = .ok (a, o)) : p.run s = .ok a := by
  unfold P.run; rw [h]
theorem run_inv {p : P α} {s : Slice} {a : α} (h : p.run s = .ok a) : ∃ o, p s 0 = .ok (a, o) := by
  unfold P.run at h
  cases hr : p s 0 with
  | panic => rw [hr] at h; cases h
  | err e => rw [hr] at h; cases h
  | ok r => rw [hr] at h; cases h; exact ⟨_, rfl⟩

/-! #### Advancing -/

/-- `offset` never goes back. -/
def Adv (p : P α) : Prop := ∀ s o a o', p s o = .ok (a, o') → o ≤ o'

theorem Adv.pure (a : α) : Adv (Pure.pure a : P α) := by
  intro s o b o' h; cases h; exact Nat.le_refl _
theorem Adv.bind {p : P α} {f : α → P β} (hp : Adv p) (hf : ∀ a, Adv (f a)) : Adv (p >>= f) := by
  intro s o b o' h
  obtain ⟨a, o1, h1, h2⟩ := bind_inv h
  exact Nat.le_trans (hp _ _ _ _ h1) (hf _ _ _ _ _ h2)
theorem Adv.opt {c : Bool} {p : P α} {d : α} (h : Adv p) : Adv (P.opt c p d) := by
  cases c
  · exact Adv.pure d
  · exact h
theorem Adv.need (n : Nat) : Adv (P.need n) := by
  intro s o b o' h
  unfold P.need at h
  split at h
  · cases h
  · cases h; exact Nat.le_refl _
theorem Adv.u8 : Adv P.u8 := by
  intro s o b o' h
  unfold P.u8 at h
  cases hx : s.idx o with
  | panic => rw [hx] at h; cases h
  | err e => rw [hx] at h; cases h
  | ok x => rw [hx] at h; cases h; exact Nat.le_succ o
theorem Adv.bytes (n : Nat) : Adv (P.bytes n) := by
  intro s o b o' h
  unfold P.bytes at h
  cases hx : s.sub o (o + n) with
  | panic => rw [hx] at h; cases h
  | err e => rw [hx] at h; cases h
  | ok x => rw [hx] at h; cases h; exact Nat.le_add_right o n
theorem Adv.field (n : Nat) : Adv (P.field n) := Adv.bind (Adv.need n) fun _ => Adv.bytes n
theorem Adv.byte : Adv P.byte := Adv.bind (Adv.need 1) fun _ => Adv.u8
theorem Adv.ip (n : Nat) : Adv (P.ip n) := Adv.bind (Adv.field n) fun x => Adv.pure _

theorem u8_inv {s : Slice} {o o' : Nat} {a : UInt8} (h : P.u8 s o = .ok (a, o')) : s.idx o = .ok a ∧ o' = o + 1 := by
  unfold P.u8 at h
  cases hx : s.idx o with
  | panic => rw [hx] at h; cases h
  | err e => rw [hx] at h; cases h
  | ok x => rw [hx] at h; cases h; exact ⟨rfl, rfl⟩
theorem need_inv {s : Slice} {n o o' : Nat} {a : Unit} (h : P.need n s o = .ok (a, o')) :
    o + n ≤ s.data.length ∧ o' = o := by
  unfold P.need at h
  split at h
  · cases h
  · cases h; exact ⟨by omega, rfl⟩

/-! #### Locality -/

/-- If at least `k` bytes are left at `offset`, then the outcome does not depend on the bytes behind the slice, and
after a success at least `m` bytes are left. Like `Good`, but panics are allowed. -/
def Loc (k : Nat) (p : P α) (m : Nat) : Prop :=
  ∀ d sp o, o + k ≤ d.length → (∀ sp', p ⟨d, sp⟩ o = p ⟨d, sp'⟩ o) ∧
    ∀ a o', p ⟨d, sp⟩ o = .ok (a, o') → o' + m ≤ d.length

theorem Good.loc {k m : Nat} {p : P α} (h : Good k p m) : Loc k p m := fun d sp o ho => (h d sp o ho).2

theorem Loc.bind {k m n : Nat} {p : P α} {f : α → P β} (hp : Loc k p m) (hf : ∀ a, Loc m (f a) n) :
    Loc k (p >>= f) n := by
  intro d sp o ho
  obtain ⟨h2, h3⟩ := hp d sp o ho
  show (∀ sp', P.bind p f ⟨d, sp⟩ o = P.bind p f ⟨d, sp'⟩ o) ∧
    ∀ a o', P.bind p f ⟨d, sp⟩ o = .ok (a, o') → _
  unfold P.bind
  cases hr : p ⟨d, sp⟩ o with
  | panic =>
    refine ⟨?_, by simp⟩
    intro sp'
    rw [← h2 sp', hr]
  | err e =>
    refine ⟨?_, by simp⟩
    intro sp'
    rw [← h2 sp', hr]
  | ok r =>
    obtain ⟨a, o'⟩ := r
    obtain ⟨g2, g3⟩ := hf a d sp o' (h3 a o' hr)
    refine ⟨?_, g3⟩
    intro sp'
    rw [← h2 sp', hr]
    exact g2 sp'

theorem Loc.weaken {k k' m m' : Nat} {p : P α} (h : Loc k p m) (hk : k ≤ k') (hm : m' ≤ m) : Loc k' p m' := by
  intro d sp o ho
  obtain ⟨h2, h3⟩ := h d sp o (by omega)
  refine ⟨h2, ?_⟩
  intro a o' hr
  have := h3 a o' hr
  omega

theorem Loc.ite {k m : Nat} {c : Prop} [Decidable c] {p q : P α} (hp : c → Loc k p m)
    (hq : ¬ c → Loc k q m) : Loc k (if c then p else q) m := by
  split
  · exact hp ‹_›
  · exact hq ‹_›

theorem Loc.opt {k m : Nat} {c : Bool} {p : P α} {d : α} (hp : Loc k p m) (h : m ≤ k) :
    Loc k (P.opt c p d) m := by
  unfold P.opt
  split
  · exact hp
  · exact (Good.pure d h).loc

/-- `b[offset+i]` looks at the slice only. -/
theorem Loc.peek {k : Nat} (i : Nat) : Loc k (P.peek i) k := by
  intro d sp o ho
  refine ⟨fun _ => rfl, ?_⟩
  intro a o' h
  unfold P.peek Slice.idx at h
  simp only at h
  cases hx : d[o + i]? with
  | none => rw [hx] at h; cases h
  | some x => rw [hx] at h; cases h; omega

theorem Loc.u8 {k : Nat} : Loc k P.u8 0 := by
  intro d sp o ho
  refine ⟨fun _ => rfl, ?_⟩
  intro a o' h
  unfold P.u8 Slice.idx at h
  simp only at h
  cases hx : d[o]? with
  | none => rw [hx] at h; cases h
  | some x =>
    rw [hx] at h; cases h
    have := (List.getElem?_eq_some_iff.1 hx).1
    omega

theorem Loc.skip {k : Nat} (n : Nat) : Loc (k + n) (P.skip n) k := by
  intro d sp o ho
  refine ⟨fun _ => rfl, ?_⟩
  intro a o' h
  cases h
  omega

/-- A whole decoder. -/
theorem Loc.run {n m : Nat} {f : Unit → P β} (hf : Loc n (f ()) m) (d sp sp' : Bytes) :
    (P.minLen n >>= f).run ⟨d, sp⟩ = (P.minLen n >>= f).run ⟨d, sp'⟩ := by
  have e : ∀ sp, (P.minLen n >>= f) ⟨d, sp⟩ 0 = if d.length < n then .err .unexpectedEOF else f () ⟨d, sp⟩ 0 := by
    intro sp
    show P.bind (P.minLen n) f ⟨d, sp⟩ 0 = _
    unfold P.bind P.minLen
    by_cases hl : d.length < n <;> simp [hl]
  unfold P.run
  rw [e sp, e sp']
  by_cases hl : d.length < n
  · simp [hl]
  · rw [if_neg hl, if_neg hl, (hf d sp 0 (by omega)).1 sp']

/-- One step of a `Loc` proof. -/
macro "loc_step" : tactic => `(tactic| first
  | with_reducible exact (P.Good.pure _ (Nat.le_refl _)).loc
  | with_reducible exact (P.Good.pure _ (by omega)).loc
  | with_reducible exact (P.Good.fail _).loc
  | with_reducible exact P.Good.f16.loc
  | with_reducible exact P.Good.f32.loc
  | with_reducible exact P.Good.f64.loc
  | with_reducible exact P.Good.ip.loc
  | with_reducible exact (P.Good.field _).loc
  | with_reducible exact P.Good.byte.loc
  | with_reducible exact P.Good.len.loc
  | with_reducible exact P.Good.off.loc
  | with_reducible exact (P.Good.need _).loc
  | with_reducible exact P.Loc.peek _
  | with_reducible exact P.Loc.u8
  | with_reducible exact P.Good.u16.loc
  | with_reducible exact P.Good.u32.loc
  | with_reducible exact P.Good.u64.loc
  | with_reducible apply P.Loc.opt
  | with_reducible apply P.Loc.bind
  | with_reducible apply P.Loc.ite
  | exact Nat.zero_le _
  | exact Nat.le_refl _
  | intro _)

/-- Proves `Loc` of a decoder. -/
macro "loc" : tactic => `(tactic| repeat' loc_step)

/-! #### The end of a function, where `offset` no longer matters -/

/-- Like `Reads`, wherever `offset` ends up. -/
def ReadsEnd (p : P α) (w : Bytes) (a : α) : Prop :=
  ∀ pre post sp, ∃ o', p ⟨pre ++ w ++ post, sp⟩ pre.length = .ok (a, o')

theorem Reads.toEnd {p : P α} {w : Bytes} {a : α} (h : Reads p w a) : ReadsEnd p w a :=
  fun pre post sp => ⟨_, h pre post sp⟩

theorem Reads.bindEnd {p : P α} {f : α → P β} {w w' : Bytes} {a : α} {b : β} (hp : Reads p w a)
    (hf : ReadsEnd (f a) w' b) : ReadsEnd (p >>= f) (w ++ w') b := by
  intro pre post sp
  obtain ⟨o', h⟩ := hf (pre ++ w) post sp
  refine ⟨o', ?_⟩
  show P.bind p f _ _ = _
  unfold P.bind
  have h1 := hp pre (w' ++ post) sp
  rw [show pre ++ (w ++ w') ++ post = pre ++ w ++ (w' ++ post) by simp, h1]
  simp only
  rw [show pre ++ w ++ (w' ++ post) = pre ++ w ++ w' ++ post by simp, ← List.length_append]
  exact h

theorem ReadsEnd.run_minLen {n : Nat} {f : Unit → P α} {w : Bytes} {a : α} (hn : n ≤ w.length)
    (h : ReadsEnd (f ()) w a) (tail sp : Bytes) : (P.minLen n >>= f).run ⟨w ++ tail, sp⟩ = .ok a := by
  obtain ⟨o', h0⟩ := h [] tail sp
  have h1 : (P.minLen n >>= f) ⟨w ++ tail, sp⟩ 0 = f () ⟨w ++ tail, sp⟩ 0 := by
    show P.bind (P.minLen n) f ⟨w ++ tail, sp⟩ 0 = _
    unfold P.bind P.minLen
    simp only [List.length_append]
    rw [if_neg (by omega)]
  unfold P.run
  rw [h1]
  simp only [List.nil_append, List.length_nil] at h0
  rw [h0]

/-- Like `Takes`, wherever `offset` ends up. -/
def TakesEnd (k : Nat) (p : P α) (R : α → Bytes → Prop) : Prop :=
  ∀ d sp o a o', o + k ≤ d.length → p ⟨d, sp⟩ o = .ok (a, o') → ∃ w post, d.drop o = w ++ post ∧ R a w

theorem Takes.toEnd {k m : Nat} {p : P α} {R : α → Bytes → Prop} (h : Takes k p m R) : TakesEnd k p R := by
  intro d sp o a o' ho hp
  obtain ⟨w, post, e1, _, e3, _⟩ := h d sp o a o' ho hp
  exact ⟨w, post, e1, e3⟩

theorem TakesEnd.weaken {k : Nat} {p : P α} {R S : α → Bytes → Prop} (h : TakesEnd k p R)
    (hs : ∀ a w, R a w → S a w) : TakesEnd k p S := by
  intro d sp o b o' ho hh
  obtain ⟨w, post, e1, r⟩ := h d sp o b o' ho hh
  exact ⟨w, post, e1, hs _ _ r⟩

theorem Takes.bindEnd {k m : Nat} {p : P α} {f : α → P β} {R : α → Bytes → Prop} {S : α → β → Bytes → Prop}
    (hp : Takes k p m R) (hf : ∀ a, TakesEnd m (f a) (S a)) :
    TakesEnd k (p >>= f) (fun b w => ∃ a w1 w2, R a w1 ∧ S a b w2 ∧ w = w1 ++ w2) := by
  intro d sp o b o' ho h
  have h' : P.bind p f ⟨d, sp⟩ o = .ok (b, o') := h
  unfold P.bind at h'
  cases hr : p ⟨d, sp⟩ o with
  | panic => rw [hr] at h'; cases h'
  | err e => rw [hr] at h'; cases h'
  | ok r =>
    obtain ⟨a, o1⟩ := r
    rw [hr] at h'
    simp only at h'
    obtain ⟨w1, post1, e1, e2, r1, hl⟩ := hp d sp o a o1 ho hr
    obtain ⟨w2, post2, e3, r2⟩ := hf a d sp o1 b o' hl h'
    have e5 : d.drop o1 = post1 := by
      rw [e2, ← List.drop_drop, e1, List.drop_left]
    refine ⟨w1 ++ w2, post2, ?_, ⟨a, w1, w2, r1, r2, rfl⟩⟩
    rw [e1, ← e5, e3, List.append_assoc]

theorem TakesEnd.run {n : Nat} {f : Unit → P α} {R : α → Bytes → Prop} (h : TakesEnd n (f ()) R) (s : Slice) (a : α)
    (hp : (P.minLen n >>= f).run s = .ok a) : ∃ w post, s.data = w ++ post ∧ R a w ∧ n ≤ s.data.length := by
  obtain ⟨d, sp⟩ := s
  unfold P.run at hp
  have hb : (P.minLen n >>= f) ⟨d, sp⟩ 0 = P.bind (P.minLen n) f ⟨d, sp⟩ 0 := rfl
  rw [hb] at hp
  unfold P.bind P.minLen at hp
  simp only at hp ⊢
  by_cases hl : d.length < n
  · rw [if_pos hl] at hp; cases hp
  · rw [if_neg hl] at hp
    simp only at hp
    cases hr : f () ⟨d, sp⟩ 0 with
    | panic => rw [hr] at hp; cases hp
    | err e => rw [hr] at hp; cases hp
    | ok r =>
      obtain ⟨b, o'⟩ := r
      rw [hr] at hp
      cases hp
      obtain ⟨w, post, e1, e3⟩ := h d sp 0 a o' (by omega) hr
      exact ⟨w, post, by simpa using e1, e3, by omega⟩

/-- `if l < offset+1 {..}; b[offset]` without advancing. -/
def look : P UInt8 := need 1 >>= fun _ => peek 0

theorem Good.look {k : Nat} : Good k P.look 0 :=
  Good.bind (Good.need 1) fun _ => (Good.peek 0 (by omega)).weaken (Nat.le_refl _) (Nat.zero_le _)

theorem look_cons (pre : Bytes) (x : UInt8) (post sp : Bytes) :
    P.look ⟨pre ++ ([x] ++ post), sp⟩ pre.length = .ok (x, pre.length) := by
  show P.bind (P.need 1) (fun _ => P.peek 0) _ _ = _
  unfold P.bind P.need P.peek Slice.idx
  simp only [List.length_append, List.length_cons, List.length_nil]
  rw [if_neg (by omega)]
  simp

theorem look_ok {d sp : Bytes} {o : Nat} {x : UInt8} {o' : Nat} (h : P.look ⟨d, sp⟩ o = .ok (x, o')) :
    o' = o ∧ ∃ post, d.drop o = [x] ++ post := by
  have h' : P.bind (P.need 1) (fun _ => P.peek 0) ⟨d, sp⟩ o = .ok (x, o') := h
  unfold P.bind P.need P.peek Slice.idx at h'
  simp only at h'
  by_cases hl : d.length < o + 1
  · rw [if_pos hl] at h'; cases h'
  · rw [if_neg hl] at h'
    simp only [Nat.add_zero] at h'
    rw [List.getElem?_eq_getElem (by omega : o < d.length)] at h'
    cases h'
    refine ⟨rfl, d.drop (o + 1), ?_⟩
    rw [List.drop_eq_getElem_cons (by omega)]
    rfl

end P

/-! ### Writers -/

namespace W

/-- `b[offset] = v` without advancing -/
def poke (v : UInt8) : W := fun s o => s.set o v >>= fun s => .ok (s, o)
/-- `offset += n` -/
def skip (n : Nat) : W := fun s o => .ok (s, o + n)

/-- An octet written into a wider field leaves zeros behind it. -/
theorem Emits.poke_skip (v : UInt8) (n : Nat) (hn : 1 ≤ n) :
    Emits (W.poke v ;; W.skip n) (v :: List.replicate (n - 1) 0) := by
  intro pre m hm
  simp only [List.length_cons, List.length_replicate] at hm
  have h1 := Emits.u8 v pre m (by simp; omega)
  unfold W.seq W.poke W.skip
  unfold W.u8 at h1
  cases hs : Slice.set ⟨pre ++ List.replicate m 0, []⟩ pre.length v with
  | panic => rw [hs] at h1; cases h1
  | err e => rw [hs] at h1; cases h1
  | ok s =>
    rw [hs] at h1
    simp only [Res.ok_bind] at h1
    simp only [Res.ok_bind]
    cases h1
    simp only [List.length_cons, List.length_nil, List.length_replicate]
    have e : List.replicate (m - 1) (0 : UInt8) = List.replicate (n - 1) 0 ++ List.replicate (m - n) 0 := by
      rw [List.replicate_append_replicate]
      congr 1; omega
    have e2 : m - (n - 1 + 1) = m - n := by omega
    have e3 : n - 1 + 1 = n := by omega
    rw [e2, e3]
    simp [e]

end W

/-! ### Addresses copied as they are -/

/-- The address, if any, has `n` octets. -/
def IP.Len (n : Nat) (ip : IP) : Prop := ∀ a, ip = some a → a.length = n

theorem IP.Len.val {n : Nat} {ip : IP} (h : ip.Len n) : ip.val.length = if ip.isSome then n else 0 := by
  cases ip with
  | none => rfl
  | some a => exact h a rfl

theorem W.Emits.raw {n : Nat} {c : Bool} {ip : IP} (hc : c = ip.isSome) (h : ip.Len n) :
    W.Emits (W.opt c (W.copy n ip.val)) ip.val := by
  subst hc
  cases ip with
  | none => exact W.Emits.nop
  | some a => exact W.Emits.copy _ (h a rfl)

theorem P.Reads.raw {n : Nat} {c : Bool} {ip : IP} (hc : c = ip.isSome) (h : ip.Len n) :
    P.Reads (P.opt c (P.ip n) none) ip.val ip := by
  subst hc
  cases ip with
  | none => exact P.Reads.pure _
  | some a => exact P.Reads.ip _ (h a rfl)

theorem P.Takes.raw {k n : Nat} {c : Bool} : P.Takes k (P.opt c (P.ip n) none) 0
    (fun x w => w = IP.val x ∧ x.isSome = c ∧ IP.Len n x) := by
  refine (P.Takes.opt (P.Takes.ip n) (Nat.zero_le _)).weaken ?_
  rintro x w (⟨rfl, rfl, h⟩ | ⟨rfl, rfl, rfl⟩)
  · refine ⟨rfl, rfl, ?_⟩
    intro a ha; cases ha; exact h
  · refine ⟨rfl, rfl, ?_⟩
    intro a ha; cases ha

/-- `net.ParseIP(s).To4()`, with `ip` what `net.ParseIP` returned. -/
def IP.conv4 (ip : IP) : IP :=
  match ip with
  | none => none
  | some a => if (to4 a).isEmpty then none else some (to4 a)
/-- `net.ParseIP(s).To16()`, with `ip` what `net.ParseIP` returned. -/
def IP.conv16 (ip : IP) : IP :=
  match ip with
  | none => none
  | some a => if (to16 a).isEmpty then none else some (to16 a)

theorem IP.conv4_eq {ip : IP} (h : ip.Is4) : ip.conv4 = ip.as4 := by
  cases ip with
  | none => rfl
  | some a =>
    have := to4_length (h a rfl)
    unfold IP.conv4 IP.as4
    have e : (to4 a).isEmpty = false := by
      cases he : to4 a with
      | nil => rw [he] at this; cases this
      | cons _ _ => rfl
    simp [e]
theorem IP.conv16_eq {ip : IP} (h : ip.Is16) : ip.conv16 = ip.as16 := by
  cases ip with
  | none => rfl
  | some a =>
    have := to16_length (h a rfl)
    unfold IP.conv16 IP.as16
    have e : (to16 a).isEmpty = false := by
      cases he : to16 a with
      | nil => rw [he] at this; cases this
      | cons _ _ => rfl
    simp [e]
theorem IP.as4_len {ip : IP} (h : ip.Is4) : ip.as4.Len 4 := by
  cases ip with
  | none => intro a ha; cases ha
  | some a => intro b hb; cases hb; exact to4_length (h a rfl)
theorem IP.as16_len {ip : IP} (h : ip.Is16) : ip.as16.Len 16 := by
  cases ip with
  | none => intro a ha; cases ha
  | some a => intro b hb; cases hb; exact to16_length (h a rfl)
theorem IP.as4_isSome {ip : IP} : ip.as4.isSome = ip.isSome := by cases ip <;> rfl
theorem IP.as16_isSome {ip : IP} : ip.as16.isSome = ip.isSome := by cases ip <;> rfl
theorem IP.as4_val {ip : IP} : ip.as4.val = wire4 ip := by cases ip <;> rfl
theorem IP.as16_val {ip : IP} : ip.as16.val = wire16 ip := by cases ip <;> rfl

end Pfcp
