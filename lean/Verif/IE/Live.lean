/-
Decoding while the grouped-type configuration changes: the element decoder of /repo/ie/ie.go with every call
of `IsGrouped` answered separately. `o n t` is the answer to the `n`-th call since decoding began; each function
takes the number of calls made so far and returns the new number. A fixed configuration is an `o` that does
not depend on `n` (`live_const`). Counters are dropped on errors (nothing is decoded after an error).
-/
import Verif.IE.Lemmas

namespace Pfcp
namespace Live

abbrev Oracle := Nat → IEType → Bool

mutual
/-- `IE.MarshalLen`, /repo/ie/ie.go:598-612. -/
def marshalLen (o : Oracle) : IE → Nat → Nat × Nat
  | ⟨t, _, _, p, cs⟩, n =>
    let l := if isVendor t then 4 + 2 else 4
    if o n t then marshalLenList o l cs (n + 1) else (l + p.length, n + 1)
/-- Its loop, /repo/ie/ie.go:605-607. -/
def marshalLenList (o : Oracle) (l : Nat) : List IE → Nat → Nat × Nat
  | [], n => (l, n)
  | c :: cs, n => marshalLenList o (l + (marshalLen o c n).1) cs (marshalLen o c n).2
end

/-- `IE.UnmarshalBinary` up to the call of `IsGrouped`, /repo/ie/ie.go:515-545: type, length, enterprise id
and the payload, `none` when it returns early (538-540). -/
def head (b : Bytes) : Res (IEType × UInt16 × UInt16 × Option Bytes) := do
  let l := b.length
  if l < 4 then .err .unexpectedEOF else do
  let t := dec16 (← slice b 0 2)
  let len := dec16 (← slice b 2 4)
  let (eid, offset, endd) ← (if isVendor t then
      if l < 6 then .err .unexpectedEOF
      else if len.toNat < 2 then .err .invalidLength
      else do
        let eid := dec16 (← slice b 4 6)
        pure (eid, 4 + 2, len.toNat - 2)
    else pure (0, 4, len.toNat) : Res (UInt16 × Nat × Nat))
  if l ≤ offset then pure (t, len, eid, none)
  else if l < offset + endd then .err .unexpectedEOF
  else do
    let payload ← slice b offset (offset + endd)
    pure (t, len, eid, some payload)

mutual
/-- `IE.UnmarshalBinary`, /repo/ie/ie.go:514-556. -/
def unmarshalF (o : Oracle) : Nat → Bytes → Nat → Res (IE × Nat)
  | 0, _, _ => .panic
  | fuel + 1, b, n => do
    let (t, len, eid, p) ← head b
    match p with
    | none => pure (⟨t, len, eid, [], []⟩, n)
    | some payload =>
      if o n t then do
        let (cs, n) ← parseMultiF o fuel payload (n + 1)
        pure (⟨t, len, eid, payload, cs⟩, n)
      else pure (⟨t, len, eid, payload, []⟩, n + 1)
/-- `ParseMultiIEs`, /repo/ie/ie.go:496-511. -/
def parseMultiF (o : Oracle) : Nat → Bytes → Nat → Res (List IE × Nat)
  | 0, _, _ => .panic
  | fuel + 1, b, n =>
    if b.length = 0 then .ok ([], n)
    else do
      let (i, n) ← unmarshalF o fuel b n
      let rest ← slice b (marshalLen o i n).1 b.length
      let (is, n) ← parseMultiF o fuel rest (marshalLen o i n).2
      pure (i :: is, n)
end

/-- `ParseMultiIEs` on a buffer, starting at any time. -/
def parseMulti (o : Oracle) (b : Bytes) (n : Nat) : Res (List IE × Nat) :=
  parseMultiF o (2 * b.length + 2) b n

/-! ### The header part -/

theorem head_spec (b : Bytes) :
    head b ≠ .panic ∧ ∀ t len eid p, head b = .ok (t, len, eid, p) →
      match p with
      | none => hdrLen t ≤ b.length
      | some pl => hdrLen t + pl.length ≤ b.length := by
  unfold head
  by_cases h4 : b.length < 4
  · simp [h4]
  simp only [h4, if_false]
  have s1 : slice b 0 2 = .ok (b.take 2) := by
    unfold slice; rw [if_pos (by omega)]; simp
  have s2 : slice b 2 4 = .ok ((b.take 4).drop 2) := by
    unfold slice; rw [if_pos (by omega)]
  rw [s1, s2]
  simp only [Res.ok_bind]
  generalize dec16 (b.take 2) = t
  generalize dec16 ((b.take 4).drop 2) = len
  have fin : ∀ (e : UInt16) (off en : Nat), off = hdrLen t → 
      ((if b.length ≤ off then pure (t, len, e, none)
        else if b.length < off + en then .err .unexpectedEOF
        else do
          let payload ← slice b off (off + en)
          pure (t, len, e, some payload) : Res (IEType × UInt16 × UInt16 × Option Bytes)) ≠ .panic ∧
      (off ≤ b.length → ∀ t' len' eid' p',
        (if b.length ≤ off then pure (t, len, e, none)
        else if b.length < off + en then .err .unexpectedEOF
        else do
          let payload ← slice b off (off + en)
          pure (t, len, e, some payload) : Res (IEType × UInt16 × UInt16 × Option Bytes))
          = .ok (t', len', eid', p') →
        match p' with
        | none => hdrLen t' ≤ b.length
        | some pl => hdrLen t' + pl.length ≤ b.length)) := by
    intro e off en ho
    by_cases h1 : b.length ≤ off
    · simp only [h1, if_true]
      refine ⟨by simp, ?_⟩
      intro hle t' len' eid' p' h
      cases h
      simp only; omega
    · simp only [h1, if_false]
      by_cases h2 : b.length < off + en
      · simp [h2]
      · simp only [h2, if_false]
        have : slice b off (off + en) = .ok ((b.take (off + en)).drop off) := by
          unfold slice; rw [if_pos (by omega)]
        rw [this, Res.ok_bind]
        refine ⟨by simp, ?_⟩
        intro _ t' len' eid' p' h
        cases h
        simp only [List.length_drop, List.length_take]
        omega
  by_cases hv : isVendor t = true
  · have hh : hdrLen t = 6 := by simp [hdrLen, hv]
    simp only [hv, if_true]
    by_cases h6 : b.length < 6
    · simp [h6]
    simp only [h6, if_false]
    by_cases h2 : len.toNat < 2
    · simp [h2]
    simp only [h2, if_false]
    have s3 : slice b 4 6 = .ok ((b.take 6).drop 4) := by
      unfold slice; rw [if_pos (by omega)]
    rw [s3]
    simp only [Res.ok_bind, Res.pure_eq]
    have := fin (dec16 ((b.take 6).drop 4)) (4 + 2) (len.toNat - 2) (by omega)
    exact ⟨this.1, this.2 (by omega)⟩
  · have hh : hdrLen t = 4 := by simp [hdrLen, hv]
    simp only [hv]
    simp only [Res.pure_eq]
    have := fin 0 4 len.toNat (by omega)
    exact ⟨this.1, this.2 (by omega)⟩

/-! ### Constant oracle -/

mutual
theorem marshalLen_const (g : IEType → Bool) : ∀ (i : IE) (n : Nat),
    (marshalLen (fun _ => g) i n).1 = i.marshalLen g
  | ⟨t, _, _, p, cs⟩, n => by
    simp only [marshalLen, IE.marshalLen]
    split
    · exact marshalLenList_const g cs _ _
    · rfl
theorem marshalLenList_const (g : IEType → Bool) : ∀ (cs : List IE) (l n : Nat),
    (marshalLenList (fun _ => g) l cs n).1 = Pfcp.marshalLenList g l cs
  | [], l, n => rfl
  | c :: cs, l, n => by
    simp only [marshalLenList, Pfcp.marshalLenList]
    rw [marshalLenList_const g cs, marshalLen_const g c]
end

theorem unmarshal_head (g : IEType → Bool) (fuel : Nat) (b : Bytes) :
    Pfcp.unmarshalF g (fuel + 1) b = (head b >>= fun x =>
      match x.2.2.2 with
      | none => .ok ⟨x.1, x.2.1, x.2.2.1, [], []⟩
      | some payload =>
        if g x.1 then (Pfcp.parseMultiF g fuel payload >>= fun cs =>
          .ok ⟨x.1, x.2.1, x.2.2.1, payload, cs⟩)
        else .ok ⟨x.1, x.2.1, x.2.2.1, payload, []⟩) := by
  unfold head
  rw [Pfcp.unmarshalF]
  by_cases h4 : b.length < 4
  · simp [h4]
  simp only [h4, if_false]
  cases slice b 0 2 with
  | err e => rfl
  | panic => rfl
  | ok x =>
    simp only [Res.ok_bind]
    cases slice b 2 4 with
    | err e => rfl
    | panic => rfl
    | ok y =>
      simp only [Res.ok_bind]
      have fin : ∀ (r : Res (UInt16 × Nat × Nat)),
          (r >>= fun x_1 => if b.length ≤ x_1.2.1 then pure (⟨dec16 x, dec16 y, x_1.1, [], []⟩ : IE)
            else if b.length < x_1.2.1 + x_1.2.2 then .err .unexpectedEOF
            else do
              let payload ← slice b x_1.2.1 (x_1.2.1 + x_1.2.2)
              if g (dec16 x) then do
                let cs ← Pfcp.parseMultiF g fuel payload
                pure ⟨dec16 x, dec16 y, x_1.1, payload, cs⟩
              else pure ⟨dec16 x, dec16 y, x_1.1, payload, []⟩)
          = ((r >>= fun x_1 => if b.length ≤ x_1.2.1 then pure (dec16 x, dec16 y, x_1.1, none)
            else if b.length < x_1.2.1 + x_1.2.2 then .err .unexpectedEOF
            else do
              let payload ← slice b x_1.2.1 (x_1.2.1 + x_1.2.2)
              pure (dec16 x, dec16 y, x_1.1, some payload)) >>= fun x =>
              match x.2.2.2 with
              | none => .ok ⟨x.1, x.2.1, x.2.2.1, [], []⟩
              | some payload =>
                if g x.1 then (Pfcp.parseMultiF g fuel payload >>= fun cs =>
                  .ok ⟨x.1, x.2.1, x.2.2.1, payload, cs⟩)
                else .ok ⟨x.1, x.2.1, x.2.2.1, payload, []⟩) := by
        intro r
        cases r with
        | err e => rfl
        | panic => rfl
        | ok z =>
          simp only [Res.ok_bind]
          split
          · rfl
          · split
            · rfl
            · cases slice b z.2.1 (z.2.1 + z.2.2) <;> rfl
      exact fin _

/-- With a fixed configuration the live decoder is the decoder of Verif/IE/Model.lean. -/
theorem live_const (g : IEType → Bool) : ∀ fuel : Nat,
    (∀ b n, (unmarshalF (fun _ => g) fuel b n >>= fun r => .ok r.1) = Pfcp.unmarshalF g fuel b) ∧
    (∀ b n, (parseMultiF (fun _ => g) fuel b n >>= fun r => .ok r.1) = Pfcp.parseMultiF g fuel b) := by
  intro fuel
  induction fuel with
  | zero => exact ⟨fun _ _ => rfl, fun _ _ => rfl⟩
  | succ fuel ih =>
    constructor
    · intro b n
      rw [unmarshal_head, unmarshalF]
      cases head b with
      | err e => rfl
      | panic => rfl
      | ok x =>
        obtain ⟨t, len, eid, p⟩ := x
        simp only [Res.ok_bind]
        cases p with
        | none => rfl
        | some p =>
          simp only
          split
          · rw [← ih.2 p (n + 1)]
            cases parseMultiF (fun _ => g) fuel p (n + 1) <;> rfl
          · rfl
    · intro b n
      rw [parseMultiF, Pfcp.parseMultiF]
      split
      · rfl
      · rw [← ih.1 b n]
        cases unmarshalF (fun _ => g) fuel b n with
        | err e => rfl
        | panic => rfl
        | ok r =>
          obtain ⟨i, n'⟩ := r
          simp only [Res.ok_bind, marshalLen_const]
          cases slice b (i.marshalLen g) b.length with
          | err e => rfl
          | panic => rfl
          | ok rest =>
            simp only [Res.ok_bind]
            rw [← ih.2 rest (marshalLen (fun _ => g) i n').2]
            cases parseMultiF (fun _ => g) fuel rest (marshalLen (fun _ => g) i n').2 <;> rfl

/-! ### Types are only ever added -/

/-- The answers of a program in which types are registered (`AddGroupedIEType`) but no function is installed
while decoding: once grouped, always grouped. -/
def Growing (o : Oracle) : Prop := ∀ n t, o n t = true → o (n + 1) t = true

theorem Growing.le {o : Oracle} (h : Growing o) {n m : Nat} (hnm : n ≤ m) (t : IEType)
    (ht : o n t = true) : o m t = true := by
  induction hnm with
  | refl => exact ht
  | step _ ih => exact h _ _ ih

mutual
/-- At time `n`, an element with children is grouped, and so on down. -/
def Fit (o : Oracle) (n : Nat) : IE → Prop
  | ⟨t, _, _, _, cs⟩ => cs = [] ∨ (o n t = true ∧ FitList o n cs)
def FitList (o : Oracle) (n : Nat) : List IE → Prop
  | [] => True
  | c :: cs => Fit o n c ∧ FitList o n cs
end

mutual
theorem fit_mono {o : Oracle} (h : Growing o) {n m : Nat} (hnm : n ≤ m) :
    ∀ i : IE, Fit o n i → Fit o m i
  | ⟨t, _, _, _, cs⟩, hf => by
    simp only [Fit] at hf ⊢
    rcases hf with h1 | ⟨h1, h2⟩
    · exact .inl h1
    · exact .inr ⟨h.le hnm t h1, fitList_mono h hnm cs h2⟩
theorem fitList_mono {o : Oracle} (h : Growing o) {n m : Nat} (hnm : n ≤ m) :
    ∀ cs : List IE, FitList o n cs → FitList o m cs
  | [], _ => trivial
  | c :: cs, hf => by
    simp only [FitList] at hf ⊢
    exact ⟨fit_mono h hnm c hf.1, fitList_mono h hnm cs hf.2⟩
end

mutual
/-- Counters only grow. -/
theorem marshalLen_counter (o : Oracle) : ∀ (i : IE) (n : Nat), n ≤ (marshalLen o i n).2
  | ⟨t, _, _, p, cs⟩, n => by
    simp only [marshalLen]
    split
    · have := marshalLenList_counter o cs (if isVendor t then 4 + 2 else 4) (n + 1); omega
    · simp
theorem marshalLenList_counter (o : Oracle) : ∀ (cs : List IE) (l n : Nat),
    n ≤ (marshalLenList o l cs n).2
  | [], _, n => Nat.le_refl n
  | c :: cs, l, n => by
    simp only [marshalLenList]
    have h1 := marshalLen_counter o c n
    have h2 := marshalLenList_counter o cs (l + (marshalLen o c n).1) (marshalLen o c n).2
    omega
end

/-- Starting the sum higher shifts the result. -/
theorem marshalLenList_add (o : Oracle) : ∀ (cs : List IE) (l k n : Nat),
    (marshalLenList o (l + k) cs n).1 = (marshalLenList o l cs n).1 + k ∧
    (marshalLenList o (l + k) cs n).2 = (marshalLenList o l cs n).2
  | [], l, k, n => ⟨rfl, rfl⟩
  | c :: cs, l, k, n => by
    simp only [marshalLenList]
    rw [show l + k + (marshalLen o c n).1 = l + (marshalLen o c n).1 + k by omega]
    exact marshalLenList_add o cs _ _ _

mutual
/-- The later an element is measured, the smaller it is. -/
theorem marshalLen_anti {o : Oracle} (h : Growing o) : ∀ (i : IE) (n m : Nat), n ≤ m → Fit o n i →
    (marshalLen o i m).1 ≤ (marshalLen o i n).1 ∧
    (marshalLen o i m).2 - m = (marshalLen o i n).2 - n
  | ⟨t, _, _, p, cs⟩, n, m, hnm, hf => by
    simp only [Fit] at hf
    rcases hf with h1 | ⟨h1, h2⟩
    · subst h1
      simp only [marshalLen, marshalLenList]
      by_cases hn : o n t = true
      · rw [if_pos hn, if_pos (h.le hnm t hn)]; simp only; omega
      · rw [if_neg hn]
        split <;> simp only <;> omega
    · simp only [marshalLen]
      rw [if_pos h1, if_pos (h.le hnm t h1)]
      have := marshalLenList_anti h cs (if isVendor t then 4 + 2 else 4) (n + 1) (m + 1) (by omega)
        (fitList_mono h (by omega) cs h2)
      have c1 := marshalLenList_counter o cs (if isVendor t then 4 + 2 else 4) (n + 1)
      have c2 := marshalLenList_counter o cs (if isVendor t then 4 + 2 else 4) (m + 1)
      omega
theorem marshalLenList_anti {o : Oracle} (h : Growing o) : ∀ (cs : List IE) (l n m : Nat), n ≤ m →
    FitList o n cs →
    (marshalLenList o l cs m).1 ≤ (marshalLenList o l cs n).1 ∧
    (marshalLenList o l cs m).2 - m = (marshalLenList o l cs n).2 - n
  | [], l, n, m, _, _ => by simp [marshalLenList]
  | c :: cs, l, n, m, hnm, hf => by
    simp only [FitList] at hf
    simp only [marshalLenList]
    have h1 := marshalLen_anti h c n m hnm hf.1
    have cn := marshalLen_counter o c n
    have cm := marshalLen_counter o c m
    have h2 := marshalLenList_anti h cs (l + (marshalLen o c m).1) (marshalLen o c n).2
      (marshalLen o c m).2 (by omega) (fitList_mono h cn cs hf.2)
    obtain ⟨k, hk⟩ := Nat.le.dest h1.1
    have h3 := marshalLenList_add o cs (l + (marshalLen o c m).1) k (marshalLen o c n).2
    rw [show l + (marshalLen o c m).1 + k = l + (marshalLen o c n).1 by omega] at h3
    have d1 := marshalLenList_counter o cs (l + (marshalLen o c m).1) (marshalLen o c m).2
    have d2 := marshalLenList_counter o cs (l + (marshalLen o c m).1) (marshalLen o c n).2
    omega
end

theorem marshalLen_ge (o : Oracle) (i : IE) (n : Nat) : 4 ≤ (marshalLen o i n).1 := by
  obtain ⟨t, len, e, p, cs⟩ := i
  simp only [marshalLen]
  have key : ∀ (cs : List IE) (l n : Nat), l ≤ (marshalLenList o l cs n).1 := by
    intro cs
    induction cs with
    | nil => intro l n; exact Nat.le_refl _
    | cons c cs ih =>
      intro l n
      simp only [marshalLenList]
      have := ih (l + (marshalLen o c n).1) (marshalLen o c n).2
      omega
  split
  · have h1 := key cs (if isVendor t then 4 + 2 else 4) (n + 1)
    have h2 : 4 ≤ (if isVendor t then 4 + 2 else 4) := by split <;> omega
    omega
  · simp only; split <;> omega

theorem hdr_if (t : IEType) : (if isVendor t then 4 + 2 else 4) = hdrLen t := rfl

/-- Safety of decoding under a growing configuration. -/
theorem growing_safe {o : Oracle} (h : Growing o) : ∀ fuel : Nat,
    (∀ b n, 2 * b.length + 1 ≤ fuel → unmarshalF o fuel b n ≠ .panic ∧
      ∀ i n', unmarshalF o fuel b n = .ok (i, n') →
        n ≤ n' ∧ Fit o n' i ∧ (marshalLen o i n').1 ≤ b.length) ∧
    (∀ b n, 2 * b.length + 2 ≤ fuel → parseMultiF o fuel b n ≠ .panic ∧
      ∀ is n', parseMultiF o fuel b n = .ok (is, n') →
        n ≤ n' ∧ FitList o n' is ∧ (marshalLenList o 0 is n').1 ≤ b.length) := by
  intro fuel
  induction fuel with
  | zero => exact ⟨fun b n hb => by omega, fun b n hb => by omega⟩
  | succ fuel ih =>
    constructor
    · intro b n hb
      rw [unmarshalF]
      have hs := head_spec b
      cases hh : head b with
      | err e => simp
      | panic => exact absurd hh hs.1
      | ok x =>
        obtain ⟨t, len, eid, p⟩ := x
        have hs2 := hs.2 t len eid p hh
        simp only [Res.ok_bind]
        cases p with
        | none =>
          simp only at hs2 ⊢
          refine ⟨by simp, ?_⟩
          intro i n' he
          cases he
          refine ⟨Nat.le_refl _, by simp [Fit], ?_⟩
          simp only [marshalLen, marshalLenList, hdr_if]
          split <;> simpa using hs2
        | some p =>
          simp only at hs2 ⊢
          have h4 := hdrLen_pos t
          by_cases hg : o n t = true
          · simp only [hg, if_true]
            have hm := ih.2 p (n + 1) (by omega)
            cases hp : parseMultiF o fuel p (n + 1) with
            | err e => simp
            | panic => exact absurd hp hm.1
            | ok r =>
              obtain ⟨cs, n1⟩ := r
              have hm2 := hm.2 cs n1 hp
              simp only [Res.ok_bind]
              refine ⟨by simp, ?_⟩
              intro i n' he
              cases he
              have hg' := h.le (n := n) (m := n1) (by omega) t hg
              refine ⟨by omega, ?_, ?_⟩
              · simp only [Fit]; exact .inr ⟨hg', hm2.2.1⟩
              · simp only [marshalLen, hg', if_true, hdr_if]
                have ha := marshalLenList_anti h cs 0 n1 (n1 + 1) (by omega) hm2.2.1
                have hb' := marshalLenList_add o cs 0 (hdrLen t) (n1 + 1)
                rw [Nat.zero_add] at hb'
                omega
          · simp only [hg]
            refine ⟨by simp, ?_⟩
            intro i n' he
            cases he
            refine ⟨by omega, by simp [Fit], ?_⟩
            simp only [marshalLen, marshalLenList, hdr_if]
            split <;> simp only <;> omega
    · intro b n hb
      rw [parseMultiF]
      by_cases h0 : b.length = 0
      · simp only [h0, if_true]
        refine ⟨by simp, ?_⟩
        intro is n' he
        cases he
        exact ⟨Nat.le_refl _, trivial, by simp [marshalLenList]⟩
      · simp only [h0, if_false]
        have hu := ih.1 b n (by omega)
        cases hp : unmarshalF o fuel b n with
        | err e => simp
        | panic => exact absurd hp hu.1
        | ok r =>
          obtain ⟨i, n1⟩ := r
          have hu2 := hu.2 i n1 hp
          simp only [Res.ok_bind]
          have hsl : slice b (marshalLen o i n1).1 b.length
              = .ok (b.drop (marshalLen o i n1).1) := by
            unfold slice; rw [if_pos (by omega)]; simp
          rw [hsl, Res.ok_bind]
          have hge := marshalLen_ge o i n1
          have hm := ih.2 (b.drop (marshalLen o i n1).1) (marshalLen o i n1).2 (by
            simp only [List.length_drop]; omega)
          cases hp2 : parseMultiF o fuel (b.drop (marshalLen o i n1).1) (marshalLen o i n1).2 with
          | err e => simp
          | panic => exact absurd hp2 hm.1
          | ok r =>
            obtain ⟨is, n2⟩ := r
            have hm2 := hm.2 is n2 hp2
            simp only [Res.ok_bind]
            refine ⟨by simp, ?_⟩
            intro is' n' he
            cases he
            have hc := marshalLen_counter o i n1
            have hc2 := marshalLen_counter o i n2
            refine ⟨by omega, ⟨fit_mono h (by omega) i hu2.2.1, hm2.2.1⟩, ?_⟩
            simp only [marshalLenList]
            have a1 := marshalLen_anti h i n1 n2 (by omega) hu2.2.1
            have a2 := marshalLenList_anti h is 0 n2 (marshalLen o i n2).2 hc2 hm2.2.1
            have a3 := marshalLenList_add o is 0 (marshalLen o i n2).1 (marshalLen o i n2).2
            have a4 := hm2.2.2
            simp only [List.length_drop] at a4
            omega

end Live
end Pfcp
