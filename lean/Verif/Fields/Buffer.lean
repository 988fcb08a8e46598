/-
What the encoders of structured values do to a buffer that the caller supplies: any contents, any spare
capacity behind it, long enough or not.
-/
import Verif.Fields.Misc5

namespace Pfcp

namespace W

/-- With room from `offset` on, `w` puts exactly `bs` there, moves `offset` past it, and leaves the rest of the slice
and what lies behind it alone. -/
def Lays (w : W) (bs : Bytes) : Prop :=
  ∀ d sp o, o + bs.length ≤ d.length →
    w ⟨d, sp⟩ o = .ok (⟨d.take o ++ bs ++ d.drop (o + bs.length), sp⟩, o + bs.length)

/-- Without room, but with `k` octets, `w` reports an error, whatever lies behind the slice. -/
def Guards (k : Nat) (w : W) (bs : Bytes) : Prop :=
  ∀ d sp o, o + k ≤ d.length → d.length < o + bs.length → w ⟨d, sp⟩ o = .err .unexpectedEOF

/-- Without room, and with no spare capacity, `w` runs off the end. -/
def Bursts (w : W) (bs : Bytes) : Prop :=
  ∀ d o, o ≤ d.length → d.length < o + bs.length → w ⟨d, []⟩ o = .panic

theorem laid_length {d bs : Bytes} {o : Nat} (h : o + bs.length ≤ d.length) :
    (d.take o ++ bs ++ d.drop (o + bs.length)).length = d.length := by
  simp only [List.length_append, List.length_take, List.length_drop]; omega

theorem laid_take {d bs : Bytes} {o : Nat} (h : o + bs.length ≤ d.length) :
    (d.take o ++ bs ++ d.drop (o + bs.length)).take (o + bs.length) = d.take o ++ bs := by
  rw [List.take_append, List.take_of_length_le (by simp only [List.length_append, List.length_take]; omega)]
  have : o + bs.length - (d.take o ++ bs).length = 0 := by
    simp only [List.length_append, List.length_take]; omega
  rw [this, List.take_zero, List.append_nil]

theorem laid_drop {d bs : Bytes} {o k : Nat} (h : o + bs.length ≤ d.length) :
    (d.take o ++ bs ++ d.drop (o + bs.length)).drop (o + bs.length + k) = d.drop (o + bs.length + k) := by
  rw [List.drop_append, List.drop_of_length_le (by simp only [List.length_append, List.length_take]; omega)]
  have : o + bs.length + k - (d.take o ++ bs).length = k := by
    simp only [List.length_append, List.length_take]; omega
  rw [this, List.nil_append, List.drop_drop]

theorem overwrite_lays (d sp bs : Bytes) (o : Nat) (h : o + bs.length ≤ d.length) :
    Slice.overwrite ⟨d, sp⟩ o bs = ⟨d.take o ++ bs ++ d.drop (o + bs.length), sp⟩ := by
  unfold Slice.overwrite
  simp only
  have e1 : (d ++ sp).take o = d.take o := List.take_append_of_le_length (by omega)
  have e2 : (d ++ sp).drop (o + bs.length) = d.drop (o + bs.length) ++ sp := List.drop_append_of_le_length (by omega)
  rw [e1, e2, ← List.append_assoc]
  have e := laid_length h
  generalize List.take o d ++ bs ++ List.drop (o + bs.length) d = x at e
  rw [← e]
  simp

/-! ### Steps -/

theorem Lays.nop : Lays W.nop [] := by
  intro d sp o h
  simp [W.nop]

theorem Lays.seq {p q : W} {a b : Bytes} (hp : Lays p a) (hq : Lays q b) : Lays (p ;; q) (a ++ b) := by
  intro d sp o h
  rw [List.length_append] at h
  have h1 : o + a.length ≤ d.length := by omega
  unfold W.seq
  rw [hp d sp o h1, Res.ok_bind]
  simp only
  rw [hq _ sp _ (by rw [laid_length h1]; omega), laid_take h1, laid_drop h1, List.length_append]
  simp only [List.append_assoc, Nat.add_assoc]

theorem Lays.need {n : Nat} {q : W} {b : Bytes} (hn : n ≤ b.length) (hq : Lays q b) : Lays (W.need n ;; q) b := by
  intro d sp o h
  unfold W.seq W.need
  simp only
  rw [if_neg (by omega), Res.ok_bind]
  exact hq d sp o h

theorem set_eq (d : Bytes) (o : Nat) (v : UInt8) (h : o < d.length) :
    d.set o v = d.take o ++ [v] ++ d.drop (o + 1) := by
  induction d generalizing o with
  | nil => cases h
  | cons x d ih =>
    cases o with
    | zero => rfl
    | succ o =>
      simp only [List.length_cons] at h
      have := ih o (by omega)
      simp only [List.set_cons_succ, List.take_succ_cons, List.cons_append, List.drop_succ_cons, this]

theorem Lays.u8 (v : UInt8) : Lays (W.u8 v) [v] := by
  intro d sp o h
  simp only [List.length_cons, List.length_nil, Nat.zero_add] at h ⊢
  unfold W.u8 Slice.set
  simp only
  rw [if_pos (by omega), Res.ok_bind, set_eq d o v (by omega)]

theorem Lays.put (bs : Bytes) : Lays (W.put bs) bs := by
  intro d sp o h
  unfold W.put Slice.putAt Slice.cap
  simp only
  rw [if_pos (by omega), Res.ok_bind, overwrite_lays d sp bs o h]

theorem Lays.copy (bs : Bytes) {n : Nat} (hn : bs.length = n) : Lays (W.copy n bs) bs := by
  intro d sp o h
  unfold W.copy Slice.copyAt Slice.cap
  simp only
  rw [if_pos (by omega), Res.ok_bind, List.take_of_length_le (by omega), overwrite_lays d sp bs o h, hn]

theorem Lays.opt {c : Bool} {w : W} {bs : Bytes} (h : c = true → Lays w bs) :
    Lays (W.opt c w) (if c then bs else []) := by
  unfold W.opt
  cases c
  · exact Lays.nop
  · exact h rfl

theorem Lays.tail {w : W} {a : Bytes} (h : Lays w a) : Lays w (a ++ []) := by
  rwa [List.append_nil]

theorem Lays.poke_skip (v : UInt8) : Lays (W.poke v ;; W.skip 1) [v] := by
  intro d sp o h
  have := Lays.u8 v d sp o h
  unfold W.u8 at this
  unfold W.seq W.poke W.skip
  simp only [List.length_cons, List.length_nil, Nat.zero_add] at h ⊢
  unfold Slice.set at this ⊢
  simp only at this ⊢
  rw [if_pos (by omega)] at this ⊢
  exact this

/-! ### Encoders that check the room before every piece -/

/-- Enough room: written; between `k` octets and enough: an error. -/
structure Exact (k : Nat) (w : W) (bs : Bytes) : Prop where
  lays : Lays w bs
  guards : Guards k w bs

theorem Exact.nop {k : Nat} : Exact k W.nop [] :=
  ⟨Lays.nop, fun d sp o h1 h2 => by simp only [List.length_nil] at h2; omega⟩

/-- A first piece within the part already checked. -/
theorem Exact.pre {k : Nat} {p q : W} {a b : Bytes} (hp : Lays p a) (hq : Exact k q b) :
    Exact (a.length + k) (p ;; q) (a ++ b) := by
  refine ⟨hp.seq hq.lays, fun d sp o h1 h2 => ?_⟩
  rw [List.length_append] at h2
  have h3 : o + a.length ≤ d.length := by omega
  unfold W.seq
  rw [hp d sp o h3, Res.ok_bind]
  exact hq.guards _ sp _ (by rw [laid_length h3]; omega) (by rw [laid_length h3]; omega)

theorem Exact.seq {p q : W} {a b : Bytes} (hp : Exact 0 p a) (hq : Exact 0 q b) : Exact 0 (p ;; q) (a ++ b) := by
  refine ⟨hp.lays.seq hq.lays, fun d sp o h1 h2 => ?_⟩
  rw [List.length_append] at h2
  unfold W.seq
  by_cases h3 : o + a.length ≤ d.length
  · rw [hp.lays d sp o h3, Res.ok_bind]
    exact hq.guards _ sp _ (by rw [laid_length h3]; omega) (by rw [laid_length h3]; omega)
  · rw [hp.guards d sp o h1 (by omega)]
    rfl

/-- A check, and the rest of the program relying on it for its first `k` octets. -/
theorem Exact.need {n k : Nat} {q : W} {b : Bytes} (hk : k ≤ n) (hn : n ≤ b.length) (hq : Exact k q b) :
    Exact 0 (W.need n ;; q) b := by
  refine ⟨hq.lays.need hn, fun d sp o h1 h2 => ?_⟩
  unfold W.seq W.need
  simp only
  by_cases h3 : d.length < o + n
  · rw [if_pos h3]; rfl
  · rw [if_neg h3, Res.ok_bind]
    exact hq.guards d sp o (by omega) h2

theorem Exact.last {p : W} {a : Bytes} (hp : Lays p a) : Exact a.length p a :=
  ⟨hp, fun d sp o h1 h2 => by omega⟩

theorem Exact.opt {c : Bool} {w : W} {bs : Bytes} (h : c = true → Exact 0 w bs) :
    Exact 0 (W.opt c w) (if c then bs else []) := by
  unfold W.opt
  cases c
  · exact Exact.nop
  · exact h rfl

theorem Exact.tail {k : Nat} {w : W} {a : Bytes} (h : Exact k w a) : Exact k w (a ++ []) := by
  rwa [List.append_nil]

theorem Exact.le {k m : Nat} {w : W} {a : Bytes} (h : Exact k w a) (hm : k ≤ m) : Exact m w a :=
  ⟨h.lays, fun d sp o h1 h2 => h.guards d sp o (by omega) h2⟩

/-- `need n` and one piece of that size. -/
theorem Exact.one {n : Nat} {p : W} {a : Bytes} (hp : Lays p a) (hn : a.length = n) : Exact 0 (W.need n ;; p) a :=
  Exact.need (Nat.le_of_eq hn) (Nat.le_of_eq hn.symm) (Exact.last hp)

/-- `need n`, one piece of that size, and more. -/
theorem Exact.piece {n : Nat} {p q : W} {a b : Bytes} (hp : Lays p a) (hn : a.length = n) (hq : Exact 0 q b) :
    Exact 0 (W.need n ;; p ;; q) (a ++ b) :=
  Exact.need (k := a.length + 0) (by omega) (by rw [List.length_append]; omega) (Exact.pre hp hq)

theorem Exact.ip4 {c : Bool} {ip : IP} (hc : c = ip.isSome) (h : ip.Is4) : Exact 0 (W.ip4 c ip) (wire4 ip) := by
  subst hc
  cases ip with
  | none => exact Exact.nop
  | some a => exact Exact.one (Lays.copy _ (to4_length (h a rfl))) (to4_length (h a rfl))

theorem Exact.ip16 {c : Bool} {ip : IP} (hc : c = ip.isSome) (h : ip.Is16) : Exact 0 (W.ip16 c ip) (wire16 ip) := by
  subst hc
  cases ip with
  | none => exact Exact.nop
  | some a => exact Exact.one (Lays.copy _ (to16_length (h a rfl))) (to16_length (h a rfl))

theorem Exact.when4 {c : Bool} {ip : IP} (hc : c = true → ip.isSome = true) (h : c = true → ip.Is4) :
    Exact 0 (W.ip4 c ip) (wire4 (ip.when c)) := by
  cases c
  · exact Exact.nop
  · exact Exact.ip4 (hc rfl).symm (h rfl)
theorem Exact.when16 {c : Bool} {ip : IP} (hc : c = true → ip.isSome = true) (h : c = true → ip.Is16) :
    Exact 0 (W.ip16 c ip) (wire16 (ip.when c)) := by
  cases c
  · exact Exact.nop
  · exact Exact.ip16 (hc rfl).symm (h rfl)

/-- The whole function: written when there is room, an error when there is none, whatever lies behind the slice. -/
theorem Exact.run {k n : Nat} {w : W} {bs : Bytes} (h : Exact k w bs) (hk : k ≤ n) (hn : n ≤ bs.length) (b : Slice) :
    (W.minLen n ;; w).run b = if bs.length ≤ b.data.length then
      .ok ⟨bs ++ b.data.drop bs.length, b.spare⟩ else .err .unexpectedEOF := by
  obtain ⟨d, sp⟩ := b
  unfold W.run W.seq W.minLen
  simp only
  by_cases h1 : bs.length ≤ d.length
  · rw [if_neg (by omega), if_pos h1, Res.ok_bind]
    simp only
    rw [h.lays d sp 0 (by omega), Res.ok_bind]
    simp
  · rw [if_neg h1]
    by_cases h2 : d.length < n
    · rw [if_pos h2]; rfl
    · rw [if_neg h2, Res.ok_bind]
      simp only
      rw [h.guards d sp 0 (by omega) (by omega)]
      rfl

/-! ### Encoders that check nothing after the start -/

/-- Enough room: written; not enough and no spare capacity: a panic. -/
structure Loose (w : W) (bs : Bytes) : Prop where
  lays : Lays w bs
  bursts : Bursts w bs

theorem Loose.nop : Loose W.nop [] :=
  ⟨Lays.nop, fun d o h1 h2 => by simp only [List.length_nil] at h2; omega⟩

theorem Loose.seq {p q : W} {a b : Bytes} (hp : Loose p a) (hq : Loose q b) : Loose (p ;; q) (a ++ b) := by
  refine ⟨hp.lays.seq hq.lays, fun d o h1 h2 => ?_⟩
  rw [List.length_append] at h2
  unfold W.seq
  by_cases h3 : o + a.length ≤ d.length
  · rw [hp.lays d [] o h3, Res.ok_bind]
    exact hq.bursts _ _ (by rw [laid_length h3]; omega) (by rw [laid_length h3]; omega)
  · rw [hp.bursts d o h1 (by omega)]
    rfl

theorem Loose.u8 (v : UInt8) : Loose (W.u8 v) [v] := by
  refine ⟨Lays.u8 v, fun d o h1 h2 => ?_⟩
  simp only [List.length_cons, List.length_nil, Nat.zero_add] at h2
  unfold W.u8 Slice.set
  simp only
  rw [if_neg (by omega)]
  rfl

theorem Loose.put (bs : Bytes) : Loose (W.put bs) bs := by
  refine ⟨Lays.put bs, fun d o h1 h2 => ?_⟩
  unfold W.put Slice.putAt Slice.cap
  simp only [List.length_nil, Nat.add_zero]
  rw [if_neg (by omega)]
  rfl

theorem Loose.copy (bs : Bytes) {n : Nat} (hn : bs.length = n) : Loose (W.copy n bs) bs := by
  refine ⟨Lays.copy bs hn, fun d o h1 h2 => ?_⟩
  unfold W.copy Slice.copyAt Slice.cap
  simp only [List.length_nil, Nat.add_zero]
  rw [if_neg (by omega)]
  rfl

theorem Loose.poke_skip (v : UInt8) : Loose (W.poke v ;; W.skip 1) [v] := by
  refine ⟨Lays.poke_skip v, fun d o h1 h2 => ?_⟩
  simp only [List.length_cons, List.length_nil, Nat.zero_add] at h2
  unfold W.seq W.poke Slice.set
  simp only
  rw [if_neg (by omega)]
  rfl

theorem Loose.opt {c : Bool} {w : W} {bs : Bytes} (h : c = true → Loose w bs) :
    Loose (W.opt c w) (if c then bs else []) := by
  unfold W.opt
  cases c
  · exact Loose.nop
  · exact h rfl

theorem Loose.tail {w : W} {a : Bytes} (h : Loose w a) : Loose w (a ++ []) := by
  rwa [List.append_nil]

theorem Loose.raw {n : Nat} {c : Bool} {ip : IP} (hc : c = ip.isSome) (h : ip.Len n) :
    Loose (W.opt c (W.copy n ip.val)) ip.val := by
  subst hc
  cases ip with
  | none => exact Loose.nop
  | some a => exact Loose.copy _ (h a rfl)

/-- The whole function, for a buffer with room, whatever lies behind it. -/
theorem Lays.run {n : Nat} {w : W} {bs : Bytes} (h : Lays w bs) (hn : n ≤ bs.length) {b : Slice}
    (hb : bs.length ≤ b.data.length) : (W.minLen n ;; w).run b = .ok ⟨bs ++ b.data.drop bs.length, b.spare⟩ := by
  obtain ⟨d, sp⟩ := b
  unfold W.run W.seq W.minLen
  simp only at hb ⊢
  rw [if_neg (by omega), Res.ok_bind]
  simp only
  rw [h d sp 0 (by omega), Res.ok_bind]
  simp

theorem Lays.marshal {n : Nat} {w : W} {bs : Bytes} (h : Lays w bs) (hn : n ≤ bs.length) :
    (W.minLen n ;; w).marshal bs.length = .ok bs := by
  unfold W.marshal
  rw [h.run hn (b := Slice.make bs.length) (by simp [Slice.make])]
  simp [Slice.make, Res.ok_bind]

/-- A buffer below the minimum is refused. -/
theorem short {n : Nat} {w : W} {b : Slice} (h : b.data.length < n) : (W.minLen n ;; w).run b = .err .unexpectedEOF := by
  unfold W.run W.seq W.minLen
  rw [if_pos h]
  rfl

/-- The whole function: written when there is room, an error below the minimum, a panic in between. -/
theorem Loose.run {n : Nat} {w : W} {bs : Bytes} (h : Loose w bs) (hn : n ≤ bs.length) (d : Bytes) :
    (W.minLen n ;; w).run ⟨d, []⟩ = if bs.length ≤ d.length then .ok ⟨bs ++ d.drop bs.length, []⟩
      else if d.length < n then .err .unexpectedEOF else .panic := by
  by_cases h1 : bs.length ≤ d.length
  · rw [if_pos h1]
    exact h.lays.run hn h1
  · rw [if_neg h1]
    by_cases h2 : d.length < n
    · rw [if_pos h2]
      exact short h2
    · rw [if_neg h2]
      unfold W.run W.seq W.minLen
      simp only
      rw [if_neg h2, Res.ok_bind]
      simp only
      rw [h.bursts d 0 (by omega) (by omega)]
      rfl

/-! ### Encoders that check some pieces and not others -/

/-- Written when there is room; otherwise a panic where `r` says so of the number of octets left, and an error
elsewhere. -/
structure Mixed (sp : Bytes) (w : W) (bs : Bytes) (r : Nat → Prop) : Prop where
  lays : Lays w bs
  bursts : ∀ d o, o ≤ d.length → d.length < o + bs.length → r (d.length - o) → w ⟨d, sp⟩ o = .panic
  guards : ∀ d o, o ≤ d.length → d.length < o + bs.length → ¬ r (d.length - o) → w ⟨d, sp⟩ o = .err .unexpectedEOF

theorem Mixed.seq {sp : Bytes} {p q : W} {a b : Bytes} {r t : Nat → Prop} (hp : Mixed sp p a r) (hq : Mixed sp q b t) :
    Mixed sp (p ;; q) (a ++ b) fun k => (k < a.length ∧ r k) ∨ (a.length ≤ k ∧ t (k - a.length)) := by
  refine ⟨hp.lays.seq hq.lays, fun d o h1 h2 hr => ?_, fun d o h1 h2 hr => ?_⟩ <;>
    rw [List.length_append] at h2 <;> unfold W.seq <;> by_cases h3 : o + a.length ≤ d.length
  · rw [hp.lays d sp o h3, Res.ok_bind]
    refine hq.bursts _ _ (by rw [laid_length h3]; omega) (by rw [laid_length h3]; omega) ?_
    rw [laid_length h3]
    rcases hr with ⟨h4, _⟩ | ⟨_, h5⟩
    · omega
    · rwa [Nat.sub_sub] at h5
  · rcases hr with ⟨_, h5⟩ | ⟨h4, _⟩
    · rw [hp.bursts d o h1 (by omega) h5]; rfl
    · omega
  · rw [hp.lays d sp o h3, Res.ok_bind]
    refine hq.guards _ _ (by rw [laid_length h3]; omega) (by rw [laid_length h3]; omega) ?_
    rw [laid_length h3]
    intro h5
    exact hr (Or.inr ⟨by omega, by rwa [Nat.sub_sub]⟩)
  · rw [hp.guards d o h1 (by omega) fun h5 => hr (Or.inl ⟨by omega, h5⟩)]
    rfl

theorem Mixed.u8 (sp : Bytes) (v : UInt8) : Mixed sp (W.u8 v) [v] fun _ => True := by
  refine ⟨Lays.u8 v, fun d o h1 h2 _ => ?_, fun d o h1 h2 h3 => absurd trivial h3⟩
  simp only [List.length_cons, List.length_nil, Nat.zero_add] at h2
  unfold W.u8 Slice.set
  simp only
  rw [if_neg (by omega)]
  rfl

theorem Mixed.nop (sp : Bytes) {r : Nat → Prop} : Mixed sp W.nop [] r :=
  ⟨Lays.nop, fun d o h1 h2 => by simp only [List.length_nil] at h2; omega,
    fun d o h1 h2 => by simp only [List.length_nil] at h2; omega⟩

theorem Mixed.opt {sp : Bytes} {c : Bool} {w : W} {bs : Bytes} {r : Nat → Prop} (h : c = true → Mixed sp w bs r) :
    Mixed sp (W.opt c w) (if c then bs else []) r := by
  unfold W.opt
  cases c
  · exact Mixed.nop sp
  · exact h rfl

theorem Mixed.tail {sp : Bytes} {w : W} {a : Bytes} {r : Nat → Prop} (h : Mixed sp w a r) : Mixed sp w (a ++ []) r := by
  rwa [List.append_nil]

theorem Mixed.need0 {sp : Bytes} {q : W} {b : Bytes} {r : Nat → Prop} (hq : Mixed sp q b r) :
    Mixed sp (W.need 0 ;; q) b r := by
  have e : ∀ d o, o ≤ d.length → (W.need 0 ;; q) ⟨d, sp⟩ o = q ⟨d, sp⟩ o := by
    intro d o h
    unfold W.seq W.need
    simp only
    rw [if_neg (by omega), Res.ok_bind]
  exact ⟨hq.lays.need (Nat.zero_le _), fun d o h1 h2 h3 => by rw [e d o h1]; exact hq.bursts d o h1 h2 h3,
    fun d o h1 h2 h3 => by rw [e d o h1]; exact hq.guards d o h1 h2 h3⟩

theorem Mixed.need {sp : Bytes} {n : Nat} {q : W} {b : Bytes} {r : Nat → Prop} (hn : n ≤ b.length)
    (hq : Mixed sp q b r) : Mixed sp (W.need n ;; q) b fun k => n ≤ k ∧ r k := by
  refine ⟨hq.lays.need hn, fun d o h1 h2 h3 => ?_, fun d o h1 h2 h3 => ?_⟩ <;> unfold W.seq W.need <;> simp only
  · rw [if_neg (by omega), Res.ok_bind]
    exact hq.bursts d o h1 h2 h3.2
  · by_cases h4 : d.length < o + n
    · rw [if_pos h4]; rfl
    · rw [if_neg h4, Res.ok_bind]
      exact hq.guards d o h1 h2 fun h5 => h3 ⟨by omega, h5⟩

theorem Exact.mixed {w : W} {bs : Bytes} (h : Exact 0 w bs) (sp : Bytes) : Mixed sp w bs fun _ => False :=
  ⟨h.lays, fun _ _ _ _ h => h.elim, fun d o h1 h2 _ => h.guards d sp o h1 h2⟩

theorem Loose.mixed {w : W} {bs : Bytes} (h : Loose w bs) : Mixed [] w bs fun _ => True :=
  ⟨h.lays, fun d o h1 h2 _ => h.bursts d o h1 h2, fun _ _ _ _ h => absurd trivial h⟩

theorem seq_assoc (p q r : W) : ((p ;; q) ;; r) = (p ;; q ;; r) := by
  funext s o
  show Res.bind (Res.bind (p s o) fun r => q r.1 r.2) (fun x => r x.1 x.2) = Res.bind (p s o) fun x =>
    Res.bind (q x.1 x.2) fun y => r y.1 y.2
  cases p s o <;> rfl

/-- A check, a piece of that size, and more. -/
theorem Mixed.piece {sp : Bytes} {n : Nat} {p q : W} {a b : Bytes} {t : Nat → Prop} (hp : Lays p a) (hn : a.length = n)
    (hq : Mixed sp q b t) : Mixed sp (W.need n ;; p ;; q) (a ++ b) fun k =>
      (k < a.length ∧ False) ∨ (a.length ≤ k ∧ t (k - a.length)) := by
  rw [← seq_assoc]
  exact ((Exact.one hp hn).mixed sp).seq hq

/-- The same at the start of a program, where an octet is written by index behind a check that does not ask for it. -/
theorem Mixed.octet {sp : Bytes} {v : UInt8} {q : W} {b : Bytes} {t : Nat → Prop} (hq : Mixed sp q b t) :
    Mixed sp (W.need 0 ;; W.u8 v ;; q) ([v] ++ b) fun k =>
      (k < [v].length ∧ True) ∨ ([v].length ≤ k ∧ t (k - [v].length)) :=
  Mixed.need0 ((Mixed.u8 sp v).seq hq)

theorem Mixed.congr {sp : Bytes} {w : W} {bs : Bytes} {r t : Nat → Prop} (h : Mixed sp w bs r)
    (e : ∀ k, k < bs.length → (r k ↔ t k)) : Mixed sp w bs t :=
  ⟨h.lays, fun d o h1 h2 h3 => h.bursts d o h1 h2 ((e _ (by omega)).2 h3),
    fun d o h1 h2 h3 => h.guards d o h1 h2 fun h4 => h3 ((e _ (by omega)).1 h4)⟩

/-- The whole function. -/
theorem Mixed.run {n : Nat} {sp : Bytes} {w : W} {bs : Bytes} {r : Nat → Prop} (h : Mixed sp w bs r) {d : Bytes}
    (hd : d.length < bs.length) :
    (n ≤ d.length ∧ r d.length → (W.minLen n ;; w).run ⟨d, sp⟩ = .panic) ∧
    (¬ (n ≤ d.length ∧ r d.length) → (W.minLen n ;; w).run ⟨d, sp⟩ = .err .unexpectedEOF) := by
  refine ⟨fun h1 => ?_, fun h1 => ?_⟩
  · unfold W.run W.seq W.minLen
    simp only
    rw [if_neg (by omega), Res.ok_bind]
    simp only
    rw [h.bursts d 0 (by omega) (by omega) h1.2]
    rfl
  · by_cases h2 : d.length < n
    · exact short h2
    · unfold W.run W.seq W.minLen
      simp only
      rw [if_neg (by omega), Res.ok_bind]
      simp only
      rw [h.guards d 0 (by omega) (by omega) fun h3 => h1 ⟨by omega, h3⟩]
      rfl

/-- `Mixed.run` as one equation. -/
theorem Mixed.out {n : Nat} {sp : Bytes} {w : W} {bs : Bytes} {r : Nat → Prop} (h : Mixed sp w bs r)
    [DecidablePred r] {d : Bytes} (hd : d.length < bs.length) :
    (W.minLen n ;; w).run ⟨d, sp⟩ = if n ≤ d.length ∧ r d.length then .panic else .err .unexpectedEOF := by
  by_cases hc : n ≤ d.length ∧ r d.length
  · rw [if_pos hc]; exact (h.run hd).1 hc
  · rw [if_neg hc]; exact (h.run hd).2 hc

/-- A first part within the octets checked at the start. -/
theorem Mixed.preOut {n : Nat} {sp : Bytes} {p q : W} {a b : Bytes} {r : Nat → Prop} (hp : Lays p a)
    (h : Mixed sp q b r) [DecidablePred r] {d : Bytes} (hn : n ≤ d.length) (ha : a.length ≤ d.length)
    (hd : d.length < a.length + b.length) :
    (W.minLen n ;; p ;; q).run ⟨d, sp⟩ = if r (d.length - a.length) then .panic else .err .unexpectedEOF := by
  unfold W.run W.seq W.minLen
  simp only
  rw [if_neg (by omega), Res.ok_bind]
  simp only
  rw [hp d sp 0 (by omega), Res.ok_bind]
  simp only
  have hl := laid_length (d := d) (bs := a) (o := 0) (by omega)
  by_cases hc : r (d.length - a.length)
  · rw [if_pos hc, h.bursts _ _ (by omega) (by omega) (by rw [hl, Nat.zero_add]; exact hc)]
    rfl
  · rw [if_neg hc, h.guards _ _ (by omega) (by omega) (by rw [hl, Nat.zero_add]; exact hc)]
    rfl

/-! ### Octets that are passed over -/

/-- An octet is written, the next one is not, and the rest follows. -/
theorem Lays.gap {n : Nat} {w : W} {bs : Bytes} (h : Lays w bs) (v x y : UInt8) (t sp : Bytes) (hn : n ≤ 2 + bs.length)
    (ht : bs.length ≤ t.length) :
    (W.minLen n ;; W.u8 v ;; W.skip 1 ;; w).run ⟨x :: y :: t, sp⟩ = .ok ⟨v :: y :: bs ++ t.drop bs.length, sp⟩ := by
  unfold W.run W.seq W.minLen W.u8 W.skip Slice.set
  simp only [List.length_cons]
  rw [if_neg (by omega), Res.ok_bind]
  simp only [List.set_cons_zero]
  rw [if_pos (by simp only [List.length_cons]; omega), Res.ok_bind, Res.ok_bind, Res.ok_bind]
  simp only
  rw [h _ sp _ (by simp only [List.length_cons]; omega), Res.ok_bind]
  simp only [Nat.zero_add, Nat.reduceAdd, List.take_succ_cons, List.take_zero]
  rw [show 2 + bs.length = bs.length + 1 + 1 by omega]
  rfl

/-- The same on a slice that ends in between. -/
theorem Loose.gap {n : Nat} {w : W} {bs : Bytes} (h : Loose w bs) (v x y : UInt8) (t : Bytes) (hn : n ≤ 2)
    (ht : t.length < bs.length) : (W.minLen n ;; W.u8 v ;; W.skip 1 ;; w).run ⟨x :: y :: t, []⟩ = .panic := by
  unfold W.run W.seq W.minLen W.u8 W.skip Slice.set
  simp only [List.length_cons]
  rw [if_neg (by omega), Res.ok_bind]
  simp only [List.set_cons_zero]
  rw [if_pos (by simp only [List.length_cons]; omega), Res.ok_bind, Res.ok_bind, Res.ok_bind]
  simp only
  rw [h.bursts _ _ (by simp only [List.length_cons]; omega) (by simp only [List.length_cons]; omega)]
  rfl

theorem poke_skip_eq (v : UInt8) (w : W) : ((W.poke v ;; W.skip 2) ;; w) = (W.u8 v ;; W.skip 1 ;; w) := by
  funext s o
  unfold W.seq W.poke W.skip W.u8
  cases s.set o v <;> rfl

/-- Past the end of the slice nothing but the end of the program is survived. -/
def Beyond (w : W) (bs : Bytes) : Prop :=
  ∀ d o, d.length < o → w ⟨d, []⟩ o = if bs = [] then .ok (⟨d, []⟩, o) else .panic

theorem Beyond.nop : Beyond W.nop [] := by
  intro d o h
  rfl

theorem Beyond.put {bs : Bytes} (hb : bs ≠ []) : Beyond (W.put bs) bs := by
  intro d o h
  unfold W.put Slice.putAt Slice.cap
  simp only [List.length_nil, Nat.add_zero]
  rw [if_neg (by omega), if_neg hb]
  rfl

theorem Beyond.copy {bs : Bytes} {n : Nat} (hb : bs ≠ []) : Beyond (W.copy n bs) bs := by
  intro d o h
  unfold W.copy Slice.copyAt Slice.cap
  simp only [List.length_nil, Nat.add_zero]
  rw [if_neg (by omega), if_neg hb]
  rfl

theorem Beyond.seq {p q : W} {a b : Bytes} (hp : Beyond p a) (hq : Beyond q b) : Beyond (p ;; q) (a ++ b) := by
  intro d o h
  unfold W.seq
  rw [hp d o h]
  by_cases ha : a = []
  · rw [if_pos ha, Res.ok_bind, ha, List.nil_append]
    exact hq d o h
  · rw [if_neg ha, if_neg (by simp [ha])]
    rfl

theorem Beyond.first {p q : W} {a b : Bytes} (hp : Beyond p a) (ha : a ≠ []) : Beyond (p ;; q) (a ++ b) := by
  intro d o h
  unfold W.seq
  rw [hp d o h, if_neg ha, if_neg (by simp [ha])]
  rfl

theorem Beyond.opt {c : Bool} {w : W} {bs : Bytes} (h : c = true → Beyond w bs) :
    Beyond (W.opt c w) (if c then bs else []) := by
  unfold W.opt
  cases c
  · exact Beyond.nop
  · exact h rfl

theorem Beyond.tail {w : W} {a : Bytes} (h : Beyond w a) : Beyond w (a ++ []) := by
  rwa [List.append_nil]

/-- A slice of one octet. -/
theorem Beyond.gap {n : Nat} {w : W} {bs : Bytes} (h : Beyond w bs) (v x : UInt8) (hn : n ≤ 1) :
    (W.minLen n ;; W.u8 v ;; W.skip 1 ;; w).run ⟨[x], []⟩ = if bs = [] then .ok ⟨[v], []⟩ else .panic := by
  unfold W.run W.seq W.minLen W.u8 W.skip Slice.set
  simp only [List.length_cons, List.length_nil]
  rw [if_neg (by omega), Res.ok_bind]
  simp only [List.set_cons_zero]
  rw [if_pos (by simp only [List.length_cons]; omega), Res.ok_bind, Res.ok_bind, Res.ok_bind]
  simp only
  rw [h _ _ (by simp)]
  by_cases hb : bs = []
  · rw [if_pos hb, if_pos hb]; rfl
  · rw [if_neg hb, if_neg hb]; rfl

/-! ### Octets that are written twice -/

/-- `Lays`, wherever `offset` ends up. -/
def LaysEnd (w : W) (bs : Bytes) : Prop :=
  ∀ d sp o, o + bs.length ≤ d.length →
    ∃ o', w ⟨d, sp⟩ o = .ok (⟨d.take o ++ bs ++ d.drop (o + bs.length), sp⟩, o')

theorem Lays.toEnd {w : W} {bs : Bytes} (h : Lays w bs) : LaysEnd w bs := fun d sp o ho => ⟨_, h d sp o ho⟩

theorem Lays.seqEnd {p q : W} {a b : Bytes} (hp : Lays p a) (hq : LaysEnd q b) : LaysEnd (p ;; q) (a ++ b) := by
  intro d sp o h
  rw [List.length_append] at h
  have h1 : o + a.length ≤ d.length := by omega
  obtain ⟨o', h2⟩ := hq (d.take o ++ a ++ d.drop (o + a.length)) sp (o + a.length) (by rw [laid_length h1]; omega)
  refine ⟨o', ?_⟩
  unfold W.seq
  rw [hp d sp o h1, Res.ok_bind]
  simp only
  rw [h2, laid_take h1, laid_drop h1, List.length_append]
  simp only [List.append_assoc, Nat.add_assoc]

theorem LaysEnd.run {n : Nat} {w : W} {bs : Bytes} (h : LaysEnd w bs) (hn : n ≤ bs.length) {b : Slice}
    (hb : bs.length ≤ b.data.length) : (W.minLen n ;; w).run b = .ok ⟨bs ++ b.data.drop bs.length, b.spare⟩ := by
  obtain ⟨d, sp⟩ := b
  unfold W.run W.seq W.minLen
  simp only at hb ⊢
  rw [if_neg (by omega), Res.ok_bind]
  simp only
  obtain ⟨o', h1⟩ := h d sp 0 (by omega)
  rw [h1, Res.ok_bind]
  simp

theorem Bursts.seq {p q : W} {a b : Bytes} (hp : Loose p a) (hq : Bursts q b) : Bursts (p ;; q) (a ++ b) := by
  intro d o h1 h2
  rw [List.length_append] at h2
  unfold W.seq
  by_cases h3 : o + a.length ≤ d.length
  · rw [hp.lays d [] o h3, Res.ok_bind]
    exact hq _ _ (by rw [laid_length h3]; omega) (by rw [laid_length h3]; omega)
  · rw [hp.bursts d o h1 (by omega)]
    rfl

theorem Bursts.run {n : Nat} {w : W} {bs : Bytes} (h : Bursts w bs) {d : Bytes} (hd : d.length < bs.length) :
    (W.minLen n ;; w).run ⟨d, []⟩ = if d.length < n then .err .unexpectedEOF else .panic := by
  by_cases h2 : d.length < n
  · rw [if_pos h2]
    exact short h2
  · rw [if_neg h2]
    unfold W.run W.seq W.minLen
    simp only
    rw [if_neg h2, Res.ok_bind]
    simp only
    rw [h d 0 (by omega) (by omega)]
    rfl

theorem putStay_lays (a d sp : Bytes) (o : Nat) (h : o + a.length ≤ d.length) :
    W.putStay a ⟨d, sp⟩ o = .ok (⟨d.take o ++ a ++ d.drop (o + a.length), sp⟩, o) := by
  unfold W.putStay Slice.putAt Slice.cap
  simp only
  rw [if_pos (by omega), Res.ok_bind, overwrite_lays d sp a o h]

theorem LaysEnd.putStay (a : Bytes) : LaysEnd (W.putStay a) a := fun d sp o h => ⟨_, putStay_lays a d sp o h⟩

theorem Bursts.putStay (a : Bytes) : Bursts (W.putStay a) a := by
  intro d o h1 h2
  unfold W.putStay Slice.putAt Slice.cap
  simp only [List.length_nil, Nat.add_zero]
  rw [if_neg (by omega)]
  rfl

/-- A longer piece written over a shorter one leaves nothing of it. -/
theorem Loose.over (a b : Bytes) {n : Nat} (hb : b.length = n) (hl : a.length ≤ n) :
    Loose (W.putStay a ;; W.copy n b) b := by
  subst hb
  refine ⟨fun d sp o h => ?_, fun d o h1 h2 => ?_⟩
  · have ha : o + a.length ≤ d.length := by omega
    unfold W.seq
    rw [putStay_lays a d sp o ha, Res.ok_bind]
    simp only
    rw [Lays.copy b rfl _ sp o (by rw [laid_length ha]; exact h)]
    have e1 : (d.take o ++ a ++ d.drop (o + a.length)).take o = d.take o := by
      rw [List.append_assoc, List.take_append_of_le_length (by rw [List.length_take]; omega), List.take_take, Nat.min_self]
    have e2 : (d.take o ++ a ++ d.drop (o + a.length)).drop (o + b.length) = d.drop (o + b.length) := by
      have := laid_drop (k := b.length - a.length) ha
      rw [show o + a.length + (b.length - a.length) = o + b.length by omega] at this
      exact this
    rw [e1, e2]
  · unfold W.seq
    by_cases ha : o + a.length ≤ d.length
    · rw [putStay_lays a d [] o ha, Res.ok_bind]
      exact (Loose.copy b rfl).bursts _ _ (by rw [laid_length ha]; exact h1) (by rw [laid_length ha]; exact h2)
    · rw [Bursts.putStay a d o h1 (by omega)]
      rfl

/-! ### Writing behind the slice -/

/-- Pieces written through sub-slices reach as far as the capacity does. -/
def Spills (w : W) (bs : Bytes) : Prop :=
  ∀ s : Slice, ∀ o, o + bs.length ≤ s.cap → w s o = .ok (s.overwrite o bs, o + bs.length)

theorem overwrite_all (s : Slice) (o : Nat) (bs : Bytes) :
    (s.overwrite o bs).data ++ (s.overwrite o bs).spare
      = (s.data ++ s.spare).take o ++ bs ++ (s.data ++ s.spare).drop (o + bs.length) := by
  unfold Slice.overwrite
  simp only [List.take_append_drop]

theorem overwrite_dataLen (s : Slice) (o : Nat) (bs : Bytes) (h : o + bs.length ≤ s.cap) :
    (s.overwrite o bs).data.length = s.data.length := by
  unfold Slice.cap at h
  unfold Slice.overwrite
  simp only [List.length_take, List.length_append, List.length_drop]
  omega

theorem overwrite_cap (s : Slice) (o : Nat) (bs : Bytes) (h : o + bs.length ≤ s.cap) :
    (s.overwrite o bs).cap = s.cap := by
  unfold Slice.cap at h
  unfold Slice.overwrite Slice.cap
  simp only [List.length_take, List.length_append, List.length_drop]
  omega

theorem overwrite_overwrite (s : Slice) (o : Nat) (a b : Bytes) (h : o + (a ++ b).length ≤ s.cap) :
    (s.overwrite o a).overwrite (o + a.length) b = s.overwrite o (a ++ b) := by
  rw [List.length_append] at h
  have hl := overwrite_dataLen s o a (by omega)
  have ha := overwrite_all s o a
  have e : ((s.overwrite o a).data ++ (s.overwrite o a).spare).take (o + a.length) ++ b ++
      ((s.overwrite o a).data ++ (s.overwrite o a).spare).drop (o + a.length + b.length)
      = (s.data ++ s.spare).take o ++ (a ++ b) ++ (s.data ++ s.spare).drop (o + (a ++ b).length) := by
    have hc : o + a.length ≤ (s.data ++ s.spare).length := by
      rw [List.length_append]; unfold Slice.cap at h; omega
    rw [ha, laid_take hc, laid_drop hc, List.length_append]
    simp only [List.append_assoc, Nat.add_assoc]
  generalize s.overwrite o a = t at *
  unfold Slice.overwrite
  simp only [e, hl]

theorem Spills.seq {p q : W} {a b : Bytes} (hp : Spills p a) (hq : Spills q b) : Spills (p ;; q) (a ++ b) := by
  intro s o h
  have h0 := h
  rw [List.length_append] at h
  unfold W.seq
  rw [hp s o (by omega), Res.ok_bind]
  simp only
  rw [hq _ _ (by rw [overwrite_cap s o a (by omega)]; omega), overwrite_overwrite s o a b h0, List.length_append,
    Nat.add_assoc]

theorem Spills.nop : Spills W.nop [] := by
  intro s o h
  unfold W.nop Slice.overwrite
  simp

theorem Spills.put (bs : Bytes) : Spills (W.put bs) bs := by
  intro s o h
  unfold W.put Slice.putAt
  rw [if_pos (by omega), Res.ok_bind]

theorem Spills.copy (bs : Bytes) {n : Nat} (hn : bs.length = n) : Spills (W.copy n bs) bs := by
  intro s o h
  unfold W.copy Slice.copyAt
  rw [if_pos (by omega), Res.ok_bind, List.take_of_length_le (by omega), hn]

theorem Spills.opt {c : Bool} {w : W} {bs : Bytes} (h : c = true → Spills w bs) :
    Spills (W.opt c w) (if c then bs else []) := by
  unfold W.opt
  cases c
  · exact Spills.nop
  · exact h rfl

theorem Spills.tail {w : W} {a : Bytes} (h : Spills w a) : Spills w (a ++ []) := by
  rwa [List.append_nil]

theorem set_overwrite (s : Slice) (v : UInt8) (h : 0 < s.data.length) : s.set 0 v = .ok (s.overwrite 0 [v]) := by
  obtain ⟨d, sp⟩ := s
  cases d with
  | nil => cases h
  | cons x d =>
    unfold Slice.set Slice.overwrite
    simp

/-- A function whose first octet alone is written by index: with room in the backing array, it writes past the slice. -/
theorem Spills.run {n : Nat} {w : W} {v : UInt8} {bs : Bytes} (h : Spills w bs) (b : Slice) (h1 : 1 ≤ n)
    (hn : n ≤ b.data.length) (hc : 1 + bs.length ≤ b.cap) :
    (W.minLen n ;; W.u8 v ;; w).run b = .ok (b.overwrite 0 (v :: bs)) := by
  unfold W.run W.seq W.minLen W.u8
  rw [if_neg (by omega), Res.ok_bind, set_overwrite b v (by omega), Res.ok_bind, Res.ok_bind]
  simp only
  have h2 : (b.overwrite 0 [v]).cap = b.cap := overwrite_cap b 0 [v] (by simp; omega)
  rw [h _ _ (by rw [h2]; omega), Res.ok_bind]
  have := overwrite_overwrite b 0 [v] bs (by simp; omega)
  simp only [List.length_cons, List.length_nil, Nat.zero_add, List.cons_append, List.nil_append] at this
  rw [Nat.zero_add, this]

end W

end Pfcp
