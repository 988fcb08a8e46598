/-
The work done by the element codec of /repo/ie/ie.go, counted in calls. `ParseMultiIEs` calls `MarshalLen` on
every element it has decoded (508), `MarshalTo` on every child it has written (586), and `MarshalLen` visits
the whole tree below the element (598-612), asking `IsGrouped` — which takes a lock in its default form,
/repo/ie/ie_grouped.go:99-104 — at every element. The functions here are those of Verif/IE/Model.lean with the
calls counted; the counts are kept when decoding fails.
-/
import Verif.IE.Live
import Verif.IE.Accept

namespace Pfcp
namespace Cost

/-- Calls made: of `UnmarshalBinary` (decoding) or `MarshalTo` (encoding), and of `MarshalLen`. -/
structure Work where
  calls : Nat
  lens : Nat
deriving DecidableEq, Repr

instance : Add Work := ⟨fun a b => ⟨a.calls + b.calls, a.lens + b.lens⟩⟩
instance : Zero Work := ⟨⟨0, 0⟩⟩

@[simp] theorem add_calls (a b : Work) : (a + b).calls = a.calls + b.calls := rfl
@[simp] theorem add_lens (a b : Work) : (a + b).lens = a.lens + b.lens := rfl
@[simp] theorem zero_calls : (0 : Work).calls = 0 := rfl
@[simp] theorem zero_lens : (0 : Work).lens = 0 := rfl

theorem Work.eq {a b : Work} (h1 : a.calls = b.calls) (h2 : a.lens = b.lens) : a = b := by
  cases a; cases b; cases h1; cases h2; rfl

mutual
/-- Calls of `MarshalLen` one call of `i.MarshalLen()` makes, itself included, /repo/ie/ie.go:598-612: one
per child in `ChildIEs` if the type is grouped. -/
def lenCalls (g : IEType → Bool) : IE → Nat
  | ⟨t, _, _, _, cs⟩ => 1 + (if g t then lenCallsList g cs else 0)
/-- The loop, /repo/ie/ie.go:605-607. -/
def lenCallsList (g : IEType → Bool) : List IE → Nat
  | [] => 0
  | c :: cs => lenCalls g c + lenCallsList g cs
end

mutual
/-- `IE.UnmarshalBinary`, /repo/ie/ie.go:514-556 (`Live.head`: 515-545). -/
def unmarshalW (g : IEType → Bool) : Nat → Bytes → Res IE × Work
  | 0, _ => (.panic, 0)
  | fuel + 1, b =>
    match Live.head b with
    | .err e => (.err e, ⟨1, 0⟩)
    | .panic => (.panic, ⟨1, 0⟩)
    | .ok (t, len, eid, none) => (.ok ⟨t, len, eid, [], []⟩, ⟨1, 0⟩)
    | .ok (t, len, eid, some p) =>
      if g t then
        let r := parseMultiW g fuel p
        (r.1 >>= fun cs => .ok ⟨t, len, eid, p, cs⟩, ⟨1, 0⟩ + r.2)
      else (.ok ⟨t, len, eid, p, []⟩, ⟨1, 0⟩)
/-- `ParseMultiIEs`, /repo/ie/ie.go:496-511. -/
def parseMultiW (g : IEType → Bool) : Nat → Bytes → Res (List IE) × Work
  | 0, _ => (.panic, 0)
  | fuel + 1, b =>
    if b.length = 0 then (.ok [], 0)
    else
      let r := unmarshalW g fuel b
      match r.1 with
      | .err e => (.err e, r.2)
      | .panic => (.panic, r.2)
      | .ok i =>
        let w := r.2 + ⟨0, lenCalls g i⟩
        match slice b (i.marshalLen g) b.length with
        | .err e => (.err e, w)
        | .panic => (.panic, w)
        | .ok rest =>
          let q := parseMultiW g fuel rest
          (q.1 >>= fun is => .ok (i :: is), w + q.2)
end

/-- `ParseMultiIEs` on a buffer. -/
def decode (g : IEType → Bool) (b : Bytes) : Res (List IE) × Work := parseMultiW g (2 * b.length + 2) b

/-- `IE.MarshalTo` up to the call of `IsGrouped`, /repo/ie/ie.go:569-580: the buffer and the offset. -/
def putHead (t : IEType) (len eid : UInt16) (b : Slice) : Res (Slice × Nat) := do
  let l := b.len
  if l < 4 then .err .invalidLength else do
  let b ← b.putAt 0 2 (be16 t)
  let b ← b.putAt 2 4 (be16 len)
  (if isVendor t && decide (6 ≤ l) then do
      let b ← b.putAt 4 6 (be16 eid)
      pure (b, 6)
    else pure (b, 4) : Res (Slice × Nat))

mutual
/-- `IE.MarshalTo`, /repo/ie/ie.go:568-595; 593 calls `MarshalLen` when the type is not grouped. -/
def marshalToW (g : IEType → Bool) : IE → Slice → Res Slice × Work
  | ⟨t, len, eid, p, cs⟩, b =>
    match putHead t len eid b with
    | .err e => (.err e, ⟨1, 0⟩)
    | .panic => (.panic, ⟨1, 0⟩)
    | .ok (b, off) =>
      if g t then
        let r := childrenW g cs b off
        (r.1, ⟨1, 0⟩ + r.2)
      else (b.copyAt off (IE.marshalLen g ⟨t, len, eid, p, cs⟩) p, ⟨1, lenCalls g ⟨t, len, eid, p, cs⟩⟩)
/-- The loop over `ChildIEs`, /repo/ie/ie.go:582-588. -/
def childrenW (g : IEType → Bool) : List IE → Slice → Nat → Res Slice × Work
  | [], b, _ => (.ok b, 0)
  | c :: cs, b, off =>
    if off ≤ b.data.length then
      let r := marshalToW g c ⟨b.data.drop off, b.spare⟩
      match r.1 with
      | .err e => (.err e, r.2)
      | .panic => (.panic, r.2)
      | .ok v =>
        let q := childrenW g cs ⟨b.data.take off ++ v.data, v.spare⟩ (off + c.marshalLen g)
        (q.1, r.2 + ⟨0, lenCalls g c⟩ + q.2)
    else (.panic, 0)
end

/-- `IE.Marshal`, /repo/ie/ie.go:559-565. -/
def encode (g : IEType → Bool) (i : IE) : Res Bytes × Work :=
  let r := marshalToW g i (Slice.make (i.marshalLen g))
  (r.1 >>= fun b => .ok b.data, ⟨0, lenCalls g i⟩ + r.2)

/-! ### Counting nothing gives the model -/

theorem erase (g : IEType → Bool) : ∀ fuel : Nat,
    (∀ b, (unmarshalW g fuel b).1 = unmarshalF g fuel b) ∧
    (∀ b, (parseMultiW g fuel b).1 = parseMultiF g fuel b) := by
  intro fuel
  induction fuel with
  | zero => exact ⟨fun _ => rfl, fun _ => rfl⟩
  | succ fuel ih =>
    constructor
    · intro b
      rw [Live.unmarshal_head, unmarshalW]
      cases Live.head b with
      | err e => rfl
      | panic => rfl
      | ok x =>
        obtain ⟨t, len, eid, p⟩ := x
        simp only [Res.ok_bind]
        cases p with
        | none => rfl
        | some p =>
          simp only
          split
          · rw [← ih.2 p]
          · rfl
    · intro b
      rw [parseMultiW, parseMultiF]
      split
      · rfl
      · rw [← ih.1 b]
        dsimp only
        cases (unmarshalW g fuel b).1 with
        | err e => rfl
        | panic => rfl
        | ok i =>
          simp only [Res.ok_bind]
          cases slice b (i.marshalLen g) b.length with
          | err e => rfl
          | panic => rfl
          | ok rest =>
            simp only [Res.ok_bind]
            rw [← ih.2 rest]
            rfl

theorem marshalTo_head (g : IEType → Bool) (t : IEType) (len eid : UInt16) (p : Bytes) (cs : List IE) (b : Slice) :
    IE.marshalTo g ⟨t, len, eid, p, cs⟩ b = (putHead t len eid b >>= fun x =>
      if g t then marshalChildren g cs x.1 x.2
      else x.1.copyAt x.2 (IE.marshalLen g ⟨t, len, eid, p, cs⟩) p) := by
  rw [IE.marshalTo]
  unfold putHead
  by_cases h4 : b.len < 4
  · simp [h4]
  simp only [h4, if_false]
  cases b.putAt 0 2 (be16 t) with
  | err e => rfl
  | panic => rfl
  | ok b1 =>
    simp only [Res.ok_bind]
    cases b1.putAt 2 4 (be16 len) with
    | err e => rfl
    | panic => rfl
    | ok b2 => rfl

mutual
theorem marshalToW_fst (g : IEType → Bool) : (i : IE) → (b : Slice) → (marshalToW g i b).1 = i.marshalTo g b
  | ⟨t, len, eid, p, cs⟩, b => by
    rw [marshalTo_head, marshalToW]
    cases putHead t len eid b with
    | err e => rfl
    | panic => rfl
    | ok x =>
      obtain ⟨b', off⟩ := x
      simp only [Res.ok_bind]
      by_cases hg : g t = true
      · rw [if_pos hg, if_pos hg]
        exact childrenW_fst g cs b' off
      · rw [if_neg hg, if_neg hg]
theorem childrenW_fst (g : IEType → Bool) : (cs : List IE) → (b : Slice) → (off : Nat) →
    (childrenW g cs b off).1 = marshalChildren g cs b off
  | [], b, off => by rw [childrenW, marshalChildren]
  | c :: cs, b, off => by
    rw [childrenW, marshalChildren]
    split
    · rw [← marshalToW_fst g c]
      dsimp only
      cases (marshalToW g c ⟨b.data.drop off, b.spare⟩).1 with
      | err e => rfl
      | panic => rfl
      | ok v =>
        simp only [Res.ok_bind]
        rw [← childrenW_fst g cs]
    · rfl
end

/-! ### Triangular numbers -/

/-- 1 + 2 + … + n. -/
def tri : Nat → Nat
  | 0 => 0
  | n + 1 => tri n + (n + 1)

theorem two_tri (n : Nat) : 2 * tri n = n * (n + 1) := by
  induction n with
  | zero => rfl
  | succ n ih =>
    rw [tri, Nat.mul_add, ih, ← Nat.add_mul, Nat.mul_comm (n + 2)]

theorem tri_mono {a b : Nat} (h : a ≤ b) : tri a ≤ tri b := by
  induction h with
  | refl => exact Nat.le_refl _
  | step _ ih => rw [tri]; omega

theorem tri_add (a b : Nat) : tri a + tri b ≤ tri (a + b) := by
  induction b with
  | zero => simp [tri]
  | succ b ih => rw [← Nat.add_assoc, tri, tri]; omega

/-! ### Sum of depths -/

mutual
/-- Sum of the depths of the elements `MarshalLen` can see (children of ungrouped types are not seen), the
element itself being at depth `k`. -/
def depths (g : IEType → Bool) (k : Nat) : IE → Nat
  | ⟨t, _, _, _, cs⟩ => k + (if g t then depthsList g (k + 1) cs else 0)
def depthsList (g : IEType → Bool) (k : Nat) : List IE → Nat
  | [] => 0
  | c :: cs => depths g k c + depthsList g k cs
end

mutual
/-- Number of elements of ungrouped type that `MarshalLen` can see. -/
def plain (g : IEType → Bool) : IE → Nat
  | ⟨t, _, _, _, cs⟩ => if g t then plainList g cs else 1
def plainList (g : IEType → Bool) : List IE → Nat
  | [] => 0
  | c :: cs => plain g c + plainList g cs
end

mutual
theorem depths_succ (g : IEType → Bool) : (k : Nat) → (i : IE) → depths g (k + 1) i = depths g k i + lenCalls g i
  | k, ⟨t, len, eid, p, cs⟩ => by
    have := depthsList_succ g (k + 1) cs
    simp only [depths, lenCalls]
    split <;> omega
theorem depthsList_succ (g : IEType → Bool) : (k : Nat) → (is : List IE) →
    depthsList g (k + 1) is = depthsList g k is + lenCallsList g is
  | _, [] => by simp [depthsList, lenCallsList]
  | k, c :: cs => by
    have h1 := depths_succ g k c
    have h2 := depthsList_succ g k cs
    simp only [depthsList, lenCallsList]
    omega
end

mutual
theorem depths_le (g : IEType → Bool) : (i : IE) → depths g 1 i ≤ tri (lenCalls g i)
  | ⟨t, len, eid, p, cs⟩ => by
    have h := depthsList_le g cs
    have h2 := depthsList_succ g 1 cs
    simp only [depths, lenCalls]
    split
    · rw [Nat.add_comm 1 (lenCallsList g cs), tri]; omega
    · simp [tri]
theorem depthsList_le (g : IEType → Bool) : (is : List IE) → depthsList g 1 is ≤ tri (lenCallsList g is)
  | [] => by simp [depthsList]
  | c :: cs => by
    have h1 := depths_le g c
    have h2 := depthsList_le g cs
    have h3 := tri_add (lenCalls g c) (lenCallsList g cs)
    simp only [depthsList, lenCallsList]
    omega
end

mutual
theorem plain_le (g : IEType → Bool) : (i : IE) → plain g i ≤ lenCalls g i
  | ⟨t, len, eid, p, cs⟩ => by
    have h := plainList_le g cs
    simp only [plain, lenCalls]
    split <;> omega
theorem plainList_le (g : IEType → Bool) : (is : List IE) → plainList g is ≤ lenCallsList g is
  | [] => by simp [plainList]
  | c :: cs => by
    have h1 := plain_le g c
    have h2 := plainList_le g cs
    simp only [plainList, lenCallsList]
    omega
end

/-! ### Decoding -/

theorem marshalLenList_add (g : IEType → Bool) : (cs : List IE) → (l : Nat) →
    marshalLenList g l cs = l + marshalLenList g 0 cs
  | [], l => by simp [marshalLenList]
  | c :: cs, l => by
    rw [marshalLenList, marshalLenList, marshalLenList_add g cs, marshalLenList_add g cs (0 + c.marshalLen g)]
    omega

theorem marshalLenList_cons (g : IEType → Bool) (c : IE) (cs : List IE) :
    marshalLenList g 0 (c :: cs) = c.marshalLen g + marshalLenList g 0 cs := by
  rw [marshalLenList, marshalLenList_add]; omega

/-- What is true of the work at every amount of fuel: bounds in the size of the input for every outcome, exact
counts on success. -/
theorem work (g : IEType → Bool) : ∀ fuel : Nat,
    (∀ b, b ≠ [] → 4 * (unmarshalW g fuel b).2.calls ≤ b.length + 3 ∧
      (unmarshalW g fuel b).2.lens ≤ tri (b.length / 4) ∧
      ∀ i, (unmarshalW g fuel b).1 = .ok i →
        4 * lenCalls g i ≤ i.marshalLen g ∧ i.marshalLen g ≤ b.length ∧
        (unmarshalW g fuel b).2.calls = lenCalls g i ∧ i.nodes = lenCalls g i ∧
        (unmarshalW g fuel b).2.lens + lenCalls g i = depths g 1 i) ∧
    (∀ b, 4 * (parseMultiW g fuel b).2.calls ≤ b.length + 3 ∧
      (parseMultiW g fuel b).2.lens ≤ tri (b.length / 4) ∧
      ∀ is, (parseMultiW g fuel b).1 = .ok is →
        marshalLenList g 0 is = b.length ∧ 4 * lenCallsList g is ≤ b.length ∧
        (parseMultiW g fuel b).2.calls = lenCallsList g is ∧ nodesList is = lenCallsList g is ∧
        (parseMultiW g fuel b).2.lens = depthsList g 1 is) := by
  intro fuel
  induction fuel with
  | zero =>
    refine ⟨fun b _ => ⟨by simp [unmarshalW], by simp [unmarshalW], ?_⟩,
      fun b => ⟨by simp [parseMultiW], by simp [parseMultiW], ?_⟩⟩
    · intro i hi; simp [unmarshalW] at hi
    · intro is hi; simp [parseMultiW] at hi
  | succ fuel ih =>
    obtain ⟨ihU, ihM⟩ := ih
    constructor
    · intro b hb
      have hb1 : 1 ≤ b.length := by
        cases b with
        | nil => exact absurd rfl hb
        | cons => simp
      have hs := (Live.head_spec b).2
      rw [unmarshalW]
      cases hh : Live.head b with
      | err e => refine ⟨?_, ?_, ?_⟩ <;> simp <;> omega
      | panic => refine ⟨?_, ?_, ?_⟩ <;> simp <;> omega
      | ok x =>
        obtain ⟨t, len, eid, p⟩ := x
        have h1 := hs t len eid p hh
        have h4 := hdrLen_pos t
        cases p with
        | none =>
          dsimp only at h1 ⊢
          refine ⟨by omega, by simp, ?_⟩
          intro i hi
          cases hi
          refine ⟨?_, ?_, ?_, ?_, ?_⟩ <;> simp [lenCalls, lenCallsList, depths, depthsList, IE.nodes, nodesList,
            IE.marshalLen, marshalLenList]
          · split <;> omega
          · have : (if isVendor t then 6 else 4) = hdrLen t := rfl
            omega
        | some p =>
          dsimp only at h1 ⊢
          by_cases hg : g t = true
          · simp only [if_pos hg]
            obtain ⟨m1, m2, m3⟩ := ihM p
            refine ⟨by simp only [add_calls]; omega, ?_, ?_⟩
            · simp only [add_lens]
              have := tri_mono (a := p.length / 4) (b := b.length / 4) (by omega)
              omega
            · intro i hi
              rw [Res.bind_eq_ok] at hi
              obtain ⟨cs, hcs, hi⟩ := hi
              cases hi
              obtain ⟨n1, n2, n3, n4, n5⟩ := m3 cs hcs
              have hd := depthsList_succ g 1 cs
              have hm : IE.marshalLen g ⟨t, len, eid, p, cs⟩ = hdrLen t + p.length := by
                rw [IE.marshalLen]
                simp only [if_pos hg]
                rw [marshalLenList_add, n1, Live.hdr_if]
              rw [hm]
              simp only [lenCalls, depths, IE.nodes, if_pos hg, add_calls, add_lens]
              refine ⟨?_, ?_, ?_, ?_, ?_⟩ <;> omega
          · simp only [if_neg hg]
            refine ⟨by omega, by simp, ?_⟩
            intro i hi
            cases hi
            refine ⟨?_, ?_, ?_, ?_, ?_⟩ <;> simp [lenCalls, depths, IE.nodes, nodesList, IE.marshalLen, hg]
            · split <;> omega
            · have : (if isVendor t then 6 else 4) = hdrLen t := rfl
              omega
    · intro b
      rw [parseMultiW]
      by_cases hb : b.length = 0
      · simp only [if_pos hb]
        refine ⟨by simp, by simp, ?_⟩
        intro is hi
        cases hi
        simp [marshalLenList, lenCallsList, depthsList, nodesList, hb]
      · simp only [if_neg hb]
        have hne : b ≠ [] := by intro h; rw [h] at hb; exact hb rfl
        obtain ⟨u1, u2, u3⟩ := ihU b hne
        cases hu : (unmarshalW g fuel b).1 with
        | err e => exact ⟨u1, u2, by intro is hi; cases hi⟩
        | panic => exact ⟨u1, u2, by intro is hi; cases hi⟩
        | ok i =>
          obtain ⟨v1, v0, v2, v3, v4⟩ := u3 i hu
          have hdl := depths_le g i
          dsimp only
          -- the work up to here
          have hU : (unmarshalW g fuel b).2.lens + lenCalls g i ≤ tri (lenCalls g i) := by omega
          rw [slice_tail b _ v0]
          dsimp only
          have hrest : (b.drop (i.marshalLen g)).length = b.length - i.marshalLen g := List.length_drop
          generalize b.drop (i.marshalLen g) = rest at hrest ⊢
          obtain ⟨m1, m2, m3⟩ := ihM rest
          have ht := tri_add (lenCalls g i) (rest.length / 4)
          have htm := tri_mono (a := lenCalls g i + rest.length / 4) (b := b.length / 4) (by omega)
          refine ⟨by simp only [add_calls]; omega, by simp only [add_lens]; omega, ?_⟩
          intro is hi
          rw [Res.bind_eq_ok] at hi
          obtain ⟨js, hjs, hi⟩ := hi
          cases hi
          obtain ⟨n1, n2, n3, n4, n5⟩ := m3 js hjs
          rw [marshalLenList_cons]
          simp only [lenCallsList, depthsList, nodesList, add_calls, add_lens]
          refine ⟨?_, ?_, ?_, ?_, ?_⟩ <;> omega

/-! ### Encoding -/

mutual
/-- The work of `MarshalTo`: bounded for every outcome, exact on success. -/
theorem marshalToW_work (g : IEType → Bool) : (i : IE) → (b : Slice) →
    (marshalToW g i b).2.calls ≤ lenCalls g i ∧ (marshalToW g i b).2.lens ≤ depths g 0 i + plain g i ∧
    ∀ v, (marshalToW g i b).1 = .ok v → (marshalToW g i b).2 = ⟨lenCalls g i, depths g 0 i + plain g i⟩
  | ⟨t, len, eid, p, cs⟩, b => by
    rw [marshalToW]
    cases putHead t len eid b with
    | err e => refine ⟨?_, ?_, ?_⟩ <;> simp [lenCalls]
    | panic => refine ⟨?_, ?_, ?_⟩ <;> simp [lenCalls]
    | ok x =>
      obtain ⟨b', off⟩ := x
      dsimp only
      by_cases hg : g t = true
      · simp only [if_pos hg, lenCalls, depths, plain, Nat.zero_add]
        obtain ⟨h1, h2, h3⟩ := childrenW_work g cs b' off
        refine ⟨?_, ?_, ?_⟩
        · simp only [add_calls]; omega
        · simp only [add_lens]; omega
        · intro v hv
          rw [h3 v hv]
          apply Work.eq <;> simp
      · simp only [if_neg hg, lenCalls, depths, plain]
        refine ⟨?_, ?_, ?_⟩ <;> simp
theorem childrenW_work (g : IEType → Bool) : (cs : List IE) → (b : Slice) → (off : Nat) →
    (childrenW g cs b off).2.calls ≤ lenCallsList g cs ∧
    (childrenW g cs b off).2.lens ≤ depthsList g 1 cs + plainList g cs ∧
    ∀ v, (childrenW g cs b off).1 = .ok v →
      (childrenW g cs b off).2 = ⟨lenCallsList g cs, depthsList g 1 cs + plainList g cs⟩
  | [], b, off => by
    rw [childrenW]
    refine ⟨?_, ?_, ?_⟩ <;> simp [lenCallsList, depthsList, plainList]
    rfl
  | c :: cs, b, off => by
    rw [childrenW]
    simp only [lenCallsList, depthsList, plainList]
    split
    · obtain ⟨h1, h2, h3⟩ := marshalToW_work g c ⟨b.data.drop off, b.spare⟩
      have hd : depths g 1 c = depths g 0 c + lenCalls g c := depths_succ g 0 c
      cases hv : (marshalToW g c ⟨b.data.drop off, b.spare⟩).1 with
      | err e => exact ⟨by dsimp only; omega, by dsimp only; omega, by simp⟩
      | panic => exact ⟨by dsimp only; omega, by dsimp only; omega, by simp⟩
      | ok v =>
        dsimp only
        obtain ⟨k1, k2, k3⟩ := childrenW_work g cs ⟨b.data.take off ++ v.data, v.spare⟩ (off + c.marshalLen g)
        have e := h3 v hv
        refine ⟨?_, ?_, ?_⟩
        · simp only [add_calls]; omega
        · simp only [add_lens]; omega
        · intro w hw
          rw [e, k3 w hw]
          apply Work.eq <;> simp <;> omega
    · refine ⟨?_, ?_, ?_⟩ <;> simp
end

theorem tri_add_mul (a b : Nat) : tri (a + b) = tri a + tri b + a * b := by
  have h1 := two_tri (a + b)
  have h2 := two_tri a
  have h3 := two_tri b
  have e : (a + b) * (a + b + 1) = a * (a + 1) + b * (b + 1) + 2 * (a * b) := by
    simp only [Nat.mul_add, Nat.add_mul, Nat.mul_one, Nat.two_mul]
    have := Nat.mul_comm a b
    omega
  omega

theorem lenCalls_pos (g : IEType → Bool) (i : IE) : 1 ≤ lenCalls g i := by
  cases i; simp [lenCalls]

mutual
theorem enc_le (g : IEType → Bool) : (i : IE) → depths g 1 i + plain g i ≤ tri (lenCalls g i) + 1
  | ⟨t, len, eid, p, cs⟩ => by
    have h := encList_le g cs
    have h2 := depthsList_succ g 1 cs
    simp only [depths, lenCalls, plain]
    split
    · rw [Nat.add_comm 1 (lenCallsList g cs), tri]; omega
    · simp [tri]
theorem encList_le (g : IEType → Bool) : (is : List IE) →
    depthsList g 1 is + plainList g is ≤ tri (lenCallsList g is) + 1
  | [] => by simp [depthsList, plainList]
  | [c] => by
    have := enc_le g c
    simp only [depthsList, plainList, lenCallsList, Nat.add_zero]
    omega
  | c :: d :: cs => by
    have h1 := enc_le g c
    have h2 := encList_le g (d :: cs)
    have h3 := tri_add_mul (lenCalls g c) (lenCallsList g (d :: cs))
    have hc := lenCalls_pos g c
    have hd : 1 ≤ lenCallsList g (d :: cs) := by
      have := lenCalls_pos g d
      simp only [lenCallsList]; omega
    have hm : 1 ≤ lenCalls g c * lenCallsList g (d :: cs) := Nat.mul_le_mul hc hd
    rw [depthsList, plainList, lenCallsList]
    omega
end

/-! ### Shallow trees -/

mutual
theorem depths_shallow (g : IEType → Bool) (D : Nat) : (k : Nat) → (i : IE) → k + i.depth ≤ D + 1 →
    depths g k i ≤ D * lenCalls g i
  | k, ⟨t, len, eid, p, cs⟩, h => by
    simp only [IE.depth] at h
    have := depthsList_shallow g D (k + 1) cs (by omega)
    simp only [depths, lenCalls, Nat.mul_add, Nat.mul_one]
    split <;> omega
theorem depthsList_shallow (g : IEType → Bool) (D : Nat) : (k : Nat) → (is : List IE) →
    k + depthList is ≤ D + 1 → depthsList g k is ≤ D * lenCallsList g is
  | _, [], _ => by simp [depthsList]
  | k, c :: cs, h => by
    simp only [depthList] at h
    have h1 := depths_shallow g D k c (by omega)
    have h2 := depthsList_shallow g D k cs (by omega)
    simp only [depthsList, lenCallsList, Nat.mul_add]
    omega
end

/-! ### The deepest trees -/

/-- `d + 1` headers of type `t`, each the only content of the one before. -/
def chain (t : IEType) : Nat → Bytes
  | 0 => be16 t ++ be16 0
  | d + 1 => be16 t ++ be16 (UInt16.ofNat (4 * (d + 1))) ++ chain t d

/-- What they are the encoding of. -/
def tower (t : IEType) : Nat → IE
  | 0 => ⟨t, 0, 0, [], []⟩
  | d + 1 => ⟨t, UInt16.ofNat (4 * (d + 1)), 0, chain t d, [tower t d]⟩

theorem chain_length (t : IEType) (d : Nat) : (chain t d).length = 4 * (d + 1) := by
  induction d with
  | zero => simp [chain]
  | succ d ih => simp [chain, ih]; omega

theorem tower_enc {g : IEType → Bool} {t : IEType} (hg : g t = true) (hv : isVendor t = false) (d : Nat) :
    (tower t d).enc g = chain t d := by
  induction d with
  | zero => simp [tower, chain, IE.enc, encHdr, encList, hg, hv]
  | succ d ih => simp [tower, chain, IE.enc, encHdr, encList, hg, hv, ih]

theorem tower_wf {g : IEType → Bool} {t : IEType} (hg : g t = true) (hv : isVendor t = false) (d : Nat)
    (hd : 4 * d < 65536) : (tower t d).WF g := by
  induction d with
  | zero => simp [tower, IE.WF, encList, WFList, hg, hv]
  | succ d ih =>
    simp only [tower, IE.WF, WFList, encList, hg, hv, tower_enc hg hv, chain_length]
    refine ⟨?_, by simp, by simp, ih (by omega), trivial⟩
    rw [UInt16.toNat_ofNat']
    simp
    omega

theorem tower_counts {g : IEType → Bool} {t : IEType} (hg : g t = true) (d : Nat) :
    lenCalls g (tower t d) = d + 1 ∧ (tower t d).nodes = d + 1 ∧ depths g 1 (tower t d) = tri (d + 1) ∧
      plain g (tower t d) = 0 := by
  induction d with
  | zero => simp [tower, lenCalls, lenCallsList, IE.nodes, nodesList, depths, depthsList, plain, plainList, tri, hg]
  | succ d ih =>
    obtain ⟨h1, h2, h3, h4⟩ := ih
    have h5 := depths_succ g 1 (tower t d)
    rw [tri]
    simp only [tower, lenCalls, lenCallsList, IE.nodes, nodesList, depths, depthsList, plain, plainList, hg, if_pos]
    refine ⟨?_, ?_, ?_, ?_⟩ <;> omega

end Cost
end Pfcp
