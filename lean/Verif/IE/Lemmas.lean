/- Helper lemmas about the element codec. The property theorems are in `Verif/IE/Props.lean`. -/
import Verif.IE.Spec

namespace Pfcp

/-! ### Slices -/

namespace Slice

theorem overwrite_inside (s : Slice) (lo : Nat) (bs : Bytes) (h : lo + bs.length ≤ s.data.length) :
    s.overwrite lo bs = ⟨s.data.take lo ++ bs ++ s.data.drop (lo + bs.length), s.spare⟩ := by
  unfold overwrite
  have hlen : (s.data.take lo ++ bs ++ s.data.drop (lo + bs.length)).length = s.data.length := by
    simp; omega
  have hall : (s.data ++ s.spare).take lo ++ bs ++ (s.data ++ s.spare).drop (lo + bs.length)
      = (s.data.take lo ++ bs ++ s.data.drop (lo + bs.length)) ++ s.spare := by
    rw [List.take_append_of_le_length (by omega), List.drop_append_of_le_length h]
    simp [List.append_assoc]
  simp only [hall]
  rw [← hlen, List.take_left, List.drop_left]

theorem putAt_inside (s : Slice) (lo hi : Nat) (bs : Bytes) (h1 : lo ≤ hi) (h2 : hi ≤ s.data.length)
    (h3 : bs.length = hi - lo) :
    s.putAt lo hi bs = .ok ⟨s.data.take lo ++ bs ++ s.data.drop hi, s.spare⟩ := by
  unfold putAt cap
  rw [if_pos ⟨h1, by omega, by omega⟩, overwrite_inside s lo bs (by omega)]
  rw [show lo + bs.length = hi by omega]

theorem copyAt_inside (s : Slice) (lo hi : Nat) (bs : Bytes) (h1 : lo ≤ hi) (h2 : hi ≤ s.data.length)
    (h3 : bs.length = hi - lo) :
    s.copyAt lo hi bs = .ok ⟨s.data.take lo ++ bs ++ s.data.drop hi, s.spare⟩ := by
  unfold copyAt cap
  rw [if_pos ⟨h1, by omega⟩, List.take_of_length_le (by omega), overwrite_inside s lo bs (by omega)]
  rw [show lo + bs.length = hi by omega]

end Slice

theorem slice_ok (b : Bytes) (lo hi : Nat) (h1 : lo ≤ hi) (h2 : hi ≤ b.length) :
    slice b lo hi = .ok ((b.take hi).drop lo) := by
  unfold slice; rw [if_pos ⟨h1, h2⟩]

theorem slice_tail (b : Bytes) (lo : Nat) (h : lo ≤ b.length) :
    slice b lo b.length = .ok (b.drop lo) := by
  rw [slice_ok b lo _ h (Nat.le_refl _), List.take_of_length_le (Nat.le_refl _)]

/-! ### Sizes -/

@[simp] theorem encHdr_length (t : IEType) (len eid : UInt16) :
    (encHdr t len eid).length = hdrLen t := by
  unfold encHdr hdrLen; split <;> simp

theorem hdrLen_pos (t : IEType) : 4 ≤ hdrLen t := by unfold hdrLen; split <;> omega
theorem hdrLen_le (t : IEType) : hdrLen t ≤ 6 := by unfold hdrLen; split <;> omega

mutual
theorem marshalLen_eq (g : IEType → Bool) : (i : IE) → i.marshalLen g = (i.enc g).length
  | ⟨t, len, eid, p, cs⟩ => by
    simp only [IE.marshalLen, IE.enc, List.length_append, encHdr_length, hdrLen]
    have := marshalLenList_eq g (if isVendor t then 4 + 2 else 4) cs
    by_cases hg : g t = true <;> simp [hg, this]
theorem marshalLenList_eq (g : IEType → Bool) (l : Nat) :
    (cs : List IE) → marshalLenList g l cs = l + (encList g cs).length
  | [] => by simp [marshalLenList, encList]
  | c :: cs => by
    simp only [marshalLenList, encList, List.length_append]
    rw [marshalLenList_eq g _ cs, marshalLen_eq g c]
    omega
end

theorem encList_append (g : IEType → Bool) (xs ys : List IE) :
    encList g (xs ++ ys) = encList g xs ++ encList g ys := by
  induction xs with
  | nil => simp [encList]
  | cons x xs ih => simp [encList, ih, List.append_assoc]

theorem WFList_append (g : IEType → Bool) (xs ys : List IE) :
    WFList g (xs ++ ys) ↔ WFList g xs ∧ WFList g ys := by
  induction xs with
  | nil => simp [WFList]
  | cons x xs ih => simp [WFList, ih, and_assoc]

theorem enc_length_pos (g : IEType → Bool) (i : IE) : 4 ≤ (i.enc g).length := by
  cases i with
  | mk t len eid p cs =>
    simp only [IE.enc, List.length_append, encHdr_length]
    have := hdrLen_pos t
    omega

theorem marshalLen_pos (g : IEType → Bool) (i : IE) : 4 ≤ i.marshalLen g := by
  rw [marshalLen_eq]; exact enc_length_pos g i

/-! ### Encoding -/

theorem splice_drop (A B : Bytes) (n k : Nat) (h : A.length = n) :
    (A ++ B).drop (n + k) = B.drop k := by
  rw [← List.drop_drop, List.drop_left' h]

mutual
theorem marshalTo_eq (g : IEType → Bool) :
    (i : IE) → (b : Slice) → (i.enc g).length ≤ b.data.length →
      i.marshalTo g b = .ok ⟨i.enc g ++ b.data.drop (i.enc g).length, b.spare⟩
  | ⟨t, len, eid, p, cs⟩, b, h => by
    have hl : hdrLen t + (if g t then encList g cs else p).length ≤ b.data.length := by
      simpa [IE.enc] using h
    have h4 := hdrLen_pos t
    have hml := marshalLen_eq g ⟨t, len, eid, p, cs⟩
    simp only [IE.marshalTo]
    rw [if_neg (by simp only [Slice.len]; omega)]
    rw [Slice.putAt_inside _ 0 2 _ (by omega) (by omega) (by simp)]
    simp only [Res.ok_bind]
    rw [Slice.putAt_inside _ 2 4 _ (by omega) (by simp; omega) (by simp)]
    simp only [Res.ok_bind]
    have e2 : ((List.take 2 (List.take 0 b.data ++ be16 t ++ List.drop 2 b.data)) ++ be16 len ++
        List.drop 4 (List.take 0 b.data ++ be16 t ++ List.drop 2 b.data))
        = be16 t ++ be16 len ++ b.data.drop 4 := by
      simp [List.drop_append, List.drop_drop]
    rw [e2]
    by_cases hv : isVendor t = true
    · have hh : hdrLen t = 6 := by simp [hdrLen, hv]
      have hcond : (isVendor t && decide (6 ≤ b.len)) = true := by
        have : 6 ≤ b.len := by simp only [Slice.len]; omega
        simp [hv, this]
      rw [if_pos hcond]
      rw [Slice.putAt_inside _ 4 6 _ (by omega) (by simp; omega) (by simp)]
      simp only [Res.ok_bind, Res.pure_eq]
      have e3 : ((List.take 4 (be16 t ++ be16 len ++ b.data.drop 4)) ++ be16 eid ++
          List.drop 6 (be16 t ++ be16 len ++ b.data.drop 4))
          = encHdr t len eid ++ b.data.drop (hdrLen t) := by
        have d1 : List.drop 6 (be16 t) = [] := List.drop_eq_nil_of_le (by simp)
        have d2 : List.drop 4 (be16 len) = [] := List.drop_eq_nil_of_le (by simp)
        have d3 : List.take 4 (be16 t) = be16 t := List.take_of_length_le (by simp)
        simp [List.take_append, List.drop_append, List.drop_drop, encHdr,
          hv, hh, List.append_assoc, d1, d2, d3]
      rw [e3]
      rw [← hh]
      exact marshalBody g t len eid p cs b hl
    · have hv' : isVendor t = false := by simpa using hv
      have hh : hdrLen t = 4 := by simp [hdrLen, hv']
      rw [if_neg (by simp [hv'])]
      simp only [Res.ok_bind, Res.pure_eq]
      have e3 : be16 t ++ be16 len ++ b.data.drop 4
          = encHdr t len eid ++ b.data.drop (hdrLen t) := by
        simp [encHdr, hv', hh]
      rw [e3, ← hh]
      exact marshalBody g t len eid p cs b hl
theorem marshalBody (g : IEType → Bool) (t : IEType) (len eid : UInt16) (p : Bytes) :
    (cs : List IE) → (b : Slice) →
    hdrLen t + (if g t then encList g cs else p).length ≤ b.data.length →
    (if g t then marshalChildren g cs ⟨encHdr t len eid ++ b.data.drop (hdrLen t), b.spare⟩ (hdrLen t)
      else Slice.copyAt ⟨encHdr t len eid ++ b.data.drop (hdrLen t), b.spare⟩ (hdrLen t)
        (IE.marshalLen g ⟨t, len, eid, p, cs⟩) p)
      = .ok ⟨(IE.mk t len eid p cs).enc g ++ b.data.drop ((IE.mk t len eid p cs).enc g).length, b.spare⟩
  | cs, b, hl => by
    have hml := marshalLen_eq g ⟨t, len, eid, p, cs⟩
    by_cases hg : g t = true
    · simp only [hg, if_true] at hl ⊢
      rw [marshalChildren_eq g cs _ _ (by simp; omega)]
      simp [IE.enc, hg, List.drop_append, List.drop_drop,
        List.append_assoc]
    · have hg' : g t = false := by simpa using hg
      simp only [hg', Bool.false_eq_true, if_false] at hl ⊢
      rw [hml]
      rw [Slice.copyAt_inside _ _ _ _ (by simp [IE.enc]) (by simp [IE.enc, hg']; omega)
        (by simp [IE.enc, hg'])]
      simp [IE.enc, hg', List.drop_append, List.drop_drop,
        List.append_assoc]
theorem marshalChildren_eq (g : IEType → Bool) :
    (cs : List IE) → (b : Slice) → (off : Nat) → off + (encList g cs).length ≤ b.data.length →
      marshalChildren g cs b off =
        .ok ⟨b.data.take off ++ encList g cs ++ b.data.drop (off + (encList g cs).length), b.spare⟩
  | [], b, off, h => by simp [marshalChildren, encList]
  | c :: cs, b, off, h => by
    simp only [encList, List.length_append] at h
    simp only [marshalChildren]
    rw [if_pos (by omega)]
    rw [marshalTo_eq g c _ (by simp; omega)]
    simp only [Res.ok_bind]
    rw [marshalLen_eq g c]
    rw [marshalChildren_eq g cs _ _ (by simp; omega)]
    have hA : (b.data.take off ++ c.enc g).length = off + (c.enc g).length := by simp; omega
    have hd := splice_drop (b.data.take off ++ c.enc g)
      (b.data.drop (off + (c.enc g).length)) _ (encList g cs).length hA
    have ht := List.take_left' (l₂ := b.data.drop (off + (c.enc g).length)) hA
    simp only [List.append_assoc, List.drop_drop] at hd ht ⊢
    rw [hd, ht]
    simp [encList, List.append_assoc, Nat.add_assoc]
end

theorem marshal_eq (g : IEType → Bool) (i : IE) : i.marshal g = .ok (i.enc g) := by
  unfold IE.marshal
  rw [marshalTo_eq g i _ (by simp [Slice.make, marshalLen_eq])]
  simp [Slice.make, marshalLen_eq]

/-! ### Decoding: removing the fuel -/

/-- One decoding step, with the decoder for the children as a parameter. -/
def parseBody (g : IEType → Bool) (pm : Bytes → Res (List IE)) (b : Bytes) : Res IE := do
  let l := b.length
  if l < 4 then .err .unexpectedEOF else do
  let t := dec16 (← slice b 0 2)
  let len := dec16 (← slice b 2 4)
  let (eid, offset, endd) ← (if isVendor t then
      if l < 6 then .err .unexpectedEOF
      else if len.toNat < 2 then .err .invalidLength
      else do
        let eid := dec16 (← slice b 4 6)
        pure (eid, 4 + 2, len.toNat - 2)
    else pure (0, 4, len.toNat) : Res (UInt16 × Nat × Nat))
  if l ≤ offset then pure ⟨t, len, eid, [], []⟩
  else if l < offset + endd then .err .unexpectedEOF
  else do
    let payload ← slice b offset (offset + endd)
    if g t then do
      let cs ← pm payload
      pure ⟨t, len, eid, payload, cs⟩
    else pure ⟨t, len, eid, payload, []⟩

theorem unmarshalF_succ (g : IEType → Bool) (n : Nat) (b : Bytes) :
    unmarshalF g (n + 1) b = parseBody g (parseMultiF g n) b := rfl

/-- Normal form of one decoding step. -/
theorem parseBody_eq (g : IEType → Bool) (pm : Bytes → Res (List IE)) (b : Bytes) :
    parseBody g pm b =
      if b.length < 4 then .err .unexpectedEOF
      else
        let t := dec16 (b.take 2)
        let len := dec16 ((b.drop 2).take 2)
        if isVendor t = true ∧ b.length < 6 then .err .unexpectedEOF
        else if isVendor t = true ∧ len.toNat < 2 then .err .invalidLength
        else
          let eid := if isVendor t then dec16 ((b.drop 4).take 2) else 0
          let endd := len.toNat - (hdrLen t - 4)
          if b.length ≤ hdrLen t then .ok ⟨t, len, eid, [], []⟩
          else if b.length < hdrLen t + endd then .err .unexpectedEOF
          else
            let payload := (b.drop (hdrLen t)).take endd
            if g t then (pm payload >>= fun cs => .ok ⟨t, len, eid, payload, cs⟩)
            else .ok ⟨t, len, eid, payload, []⟩ := by
  unfold parseBody
  by_cases h4 : b.length < 4
  · simp [h4]
  · simp only [h4, if_false]
    rw [slice_ok b 0 2 (by omega) (by omega), slice_ok b 2 4 (by omega) (by omega)]
    have e1 : List.drop 2 (List.take 4 b) = (b.drop 2).take 2 := by
      rw [List.drop_take]
    simp only [Res.ok_bind, List.drop_zero, e1]
    by_cases hv : isVendor (dec16 (b.take 2)) = true
    · have hh : hdrLen (dec16 (b.take 2)) = 6 := by simp [hdrLen, hv]
      simp only [hv, if_true, true_and, hh]
      by_cases h6 : b.length < 6
      · simp [h6]
      · simp only [h6, if_false]
        by_cases h2 : (dec16 ((b.drop 2).take 2)).toNat < 2
        · simp [h2]
        · simp only [h2, if_false]
          rw [slice_ok b 4 6 (by omega) (by omega)]
          have e2 : List.drop 4 (List.take 6 b) = (b.drop 4).take 2 := by
            rw [List.drop_take]
          simp only [Res.ok_bind, Res.pure_eq, e2]
          by_cases h7 : b.length ≤ 6
          · simp [h7]
          · by_cases h8 : b.length < 6 + ((dec16 ((b.drop 2).take 2)).toNat - 2)
            · simp [h7, h8]
            · simp only [h7, h8, if_false, show (4 + 2 : Nat) = 6 from rfl, show 6 - 4 = 2 from rfl]
              rw [slice_ok b _ _ (by omega) (by omega), List.drop_take]
              simp only [Res.ok_bind, Nat.add_sub_cancel_left]
    · have hv' : isVendor (dec16 (b.take 2)) = false := by simpa using hv
      have hh : hdrLen (dec16 (b.take 2)) = 4 := by simp [hdrLen, hv']
      simp only [hv', Bool.false_eq_true, if_false, false_and, hh, Res.pure_eq, Res.ok_bind]
      by_cases h7 : b.length ≤ 4
      · simp [h7]
      · by_cases h8 : b.length < 4 + (dec16 ((b.drop 2).take 2)).toNat
        · simp [h7, h8]
        · simp only [h7, h8, if_false, Nat.sub_self, Nat.sub_zero]
          rw [slice_ok b _ _ (by omega) (by omega), List.drop_take]
          simp only [Res.ok_bind, Nat.add_sub_cancel_left]

/-- The children decoder is only consulted on shorter inputs. -/
theorem parseBody_congr (g : IEType → Bool) (pm pm' : Bytes → Res (List IE)) (b : Bytes)
    (h : ∀ p : Bytes, p.length + 4 ≤ b.length → pm p = pm' p) :
    parseBody g pm b = parseBody g pm' b := by
  rw [parseBody_eq, parseBody_eq]
  by_cases h4 : b.length < 4
  · simp [h4]
  · have := hdrLen_pos (dec16 (b.take 2))
    dsimp only
    rw [h (List.take ((dec16 ((b.drop 2).take 2)).toNat - (hdrLen (dec16 (b.take 2)) - 4))
      (List.drop (hdrLen (dec16 (b.take 2))) b)) (by simp; omega)]

theorem slice_marshalLen_length (b rest : Bytes) (n : Nat) (h : slice b n b.length = .ok rest) :
    rest.length = b.length - n ∧ n ≤ b.length := by
  unfold slice at h
  split at h
  · rename_i hh
    cases h
    simp
    omega
  · cases h

theorem fuel_irrelevant (g : IEType → Bool) : ∀ N : Nat,
    (∀ b : Bytes, b.length ≤ N → ∀ n m, 2 * b.length + 1 ≤ n → 2 * b.length + 1 ≤ m →
      unmarshalF g n b = unmarshalF g m b) ∧
    (∀ b : Bytes, b.length ≤ N → ∀ n m, 2 * b.length + 2 ≤ n → 2 * b.length + 2 ≤ m →
      parseMultiF g n b = parseMultiF g m b) := by
  intro N
  induction N using Nat.strongRecOn with
  | ind N ih =>
    have hU : ∀ b : Bytes, b.length ≤ N → ∀ n m, 2 * b.length + 1 ≤ n → 2 * b.length + 1 ≤ m →
        unmarshalF g n b = unmarshalF g m b := by
      intro b hb n m hn hm
      obtain ⟨n, rfl⟩ : ∃ k, n = k + 1 := ⟨n - 1, by omega⟩
      obtain ⟨m, rfl⟩ : ∃ k, m = k + 1 := ⟨m - 1, by omega⟩
      rw [unmarshalF_succ, unmarshalF_succ]
      apply parseBody_congr
      intro p hp
      exact (ih p.length (by omega)).2 p (Nat.le_refl _) n m (by omega) (by omega)
    refine ⟨hU, ?_⟩
    intro b hb n m hn hm
    obtain ⟨n, rfl⟩ : ∃ k, n = k + 1 := ⟨n - 1, by omega⟩
    obtain ⟨m, rfl⟩ : ∃ k, m = k + 1 := ⟨m - 1, by omega⟩
    simp only [parseMultiF]
    by_cases h0 : b.length = 0
    · simp [h0]
    · simp only [h0, if_false]
      rw [hU b hb n m (by omega) (by omega)]
      cases hu : unmarshalF g m b with
      | err e => rfl
      | panic => rfl
      | ok i =>
        simp only [Res.ok_bind]
        cases hs : slice b (i.marshalLen g) b.length with
        | err e => rfl
        | panic => rfl
        | ok rest =>
          have := slice_marshalLen_length b rest _ hs
          have := marshalLen_pos g i
          simp only [Res.ok_bind]
          rw [(ih rest.length (by omega)).2 rest (Nat.le_refl _) n m (by omega) (by omega)]

/-- `Parse` unfolds to one step whose children are decoded by `ParseMultiIEs`. -/
theorem parse_unfold (g : IEType → Bool) (b : Bytes) :
    parse g b = parseBody g (parseMulti g) b := by
  unfold parse
  rw [unmarshalF_succ]
  apply parseBody_congr
  intro p hp
  exact (fuel_irrelevant g p.length).2 p (Nat.le_refl _) _ _ (by omega) (Nat.le_refl _)

theorem parseMulti_nil (g : IEType → Bool) : parseMulti g [] = .ok [] := by
  simp [parseMulti, parseMultiF]

/-- `ParseMultiIEs` unfolds to one iteration. -/
theorem parseMulti_unfold (g : IEType → Bool) (b : Bytes) (h : b ≠ []) :
    parseMulti g b = (do
      let i ← parse g b
      let rest ← slice b (i.marshalLen g) b.length
      let is ← parseMulti g rest
      pure (i :: is)) := by
  have h0 : ¬ b.length = 0 := by simpa using h
  unfold parseMulti
  rw [show 2 * b.length + 2 = (2 * b.length + 1) + 1 from rfl, parseMultiF]
  simp only [h0, if_false]
  rw [show unmarshalF g (2 * b.length + 1) b = parse g b from rfl]
  cases hu : parse g b with
  | err e => rfl
  | panic => rfl
  | ok i =>
    simp only [Res.ok_bind]
    cases hs : slice b (i.marshalLen g) b.length with
    | err e => rfl
    | panic => rfl
    | ok rest =>
      have := slice_marshalLen_length b rest _ hs
      have := marshalLen_pos g i
      simp only [Res.ok_bind]
      rw [(fuel_irrelevant g rest.length).2 rest (Nat.le_refl _) (2 * b.length + 1)
        (2 * rest.length + 2) (by omega) (Nat.le_refl _)]

/-! ### Decoding: safety and losslessness -/

theorem take_hdr (b : Bytes) (t : IEType) (eid len : UInt16) (ht : t = dec16 (b.take 2))
    (hl : len = dec16 ((b.drop 2).take 2))
    (he : eid = if isVendor t then dec16 ((b.drop 4).take 2) else 0)
    (h : hdrLen t ≤ b.length) : encHdr t len eid = b.take (hdrLen t) := by
  have h4 := hdrLen_pos t
  have e1 : be16 t = b.take 2 := by rw [ht, be16_dec16 _ (by simp; omega)]
  have e2 : be16 len = (b.drop 2).take 2 := by rw [hl, be16_dec16 _ (by simp; omega)]
  unfold encHdr
  by_cases hv : isVendor t = true
  · have hh : hdrLen t = 6 := by simp [hdrLen, hv]
    rw [he]
    simp only [hv, if_true]
    rw [hh] at h ⊢
    rw [be16_dec16 _ (by simp; omega), e1, e2, ← List.take_add,
      ← List.take_add]
  · have hh : hdrLen t = 4 := by simp [hdrLen, hv]
    simp only [hv]
    rw [hh] at h ⊢
    rw [e1, e2, ← List.take_add]
    simp

/-- What decoding guarantees about an input: it does not panic, and an accepted input starts with
the encoding of the result. -/
theorem parse_sound (g : IEType → Bool) : ∀ N : Nat,
    (∀ b : Bytes, b.length ≤ N → parse g b ≠ .panic ∧
      ∀ i, parse g b = .ok i → (i.enc g).length ≤ b.length ∧ b.take (i.enc g).length = i.enc g) ∧
    (∀ b : Bytes, b.length ≤ N → parseMulti g b ≠ .panic ∧
      ∀ is, parseMulti g b = .ok is → encList g is = b) := by
  intro N
  induction N using Nat.strongRecOn with
  | ind N ih =>
    have hP : ∀ b : Bytes, b.length ≤ N → parse g b ≠ .panic ∧
        ∀ i, parse g b = .ok i →
          (i.enc g).length ≤ b.length ∧ b.take (i.enc g).length = i.enc g := by
      intro b hb
      rw [parse_unfold, parseBody_eq]
      by_cases h4 : b.length < 4
      · simp [h4]
      simp only [h4, if_false]
      generalize ht : dec16 (b.take 2) = t
      generalize hlen : dec16 ((b.drop 2).take 2) = len
      by_cases h6 : isVendor t = true ∧ b.length < 6
      · rw [if_pos h6]; simp
      rw [if_neg h6]
      by_cases h2 : isVendor t = true ∧ len.toNat < 2
      · rw [if_pos h2]; simp
      rw [if_neg h2]
      generalize he : (if isVendor t then dec16 ((b.drop 4).take 2) else 0) = eid
      have hle : hdrLen t ≤ b.length := by
        unfold hdrLen
        split
        · rename_i hv; have : ¬ b.length < 6 := fun h => h6 ⟨hv, h⟩; omega
        · omega
      have hhdr := take_hdr b t eid len ht.symm hlen.symm he.symm hle
      by_cases h7 : b.length ≤ hdrLen t
      · rw [if_pos h7]
        refine ⟨by simp, ?_⟩
        intro i hi
        cases hi
        simp [IE.enc, encList, hhdr, List.take_of_length_le h7]
      rw [if_neg h7]
      generalize hend : len.toNat - (hdrLen t - 4) = endd
      by_cases h8 : b.length < hdrLen t + endd
      · rw [if_pos h8]; simp
      rw [if_neg h8]
      generalize hp : (b.drop (hdrLen t)).take endd = payload
      have hplen : payload.length = endd := by rw [← hp]; simp; omega
      have key : b.take (hdrLen t + payload.length) = encHdr t len eid ++ payload := by
        rw [List.take_add, hhdr, ← hp]
        congr 1
        simp
      by_cases hg : g t = true
      · rw [if_pos hg]
        have h4' := hdrLen_pos t
        have IH := (ih payload.length (by omega)).2 payload (Nat.le_refl _)
        refine ⟨?_, ?_⟩
        · intro hh
          rcases Res.bind_eq_panic.1 hh with h | ⟨a, _, h⟩
          · exact IH.1 h
          · cases h
        · intro i hi
          obtain ⟨cs, hcs, hi⟩ := Res.bind_eq_ok.1 hi
          cases hi
          have := IH.2 cs hcs
          simp only [IE.enc, hg, if_true, this, List.length_append, encHdr_length]
          exact ⟨by omega, key⟩
      · rw [if_neg hg]
        refine ⟨by simp, ?_⟩
        intro i hi
        cases hi
        simp only [IE.enc, hg, List.length_append, encHdr_length]
        exact ⟨by simp; omega, by simpa using key⟩
    refine ⟨hP, ?_⟩
    intro b hb
    by_cases hb0 : b = []
    · subst hb0
      rw [parseMulti_nil]
      refine ⟨by simp, ?_⟩
      intro is h; cases h; rfl
    · rw [parseMulti_unfold g b hb0]
      obtain ⟨hs, hok⟩ := hP b hb
      cases hu : parse g b with
      | err e => simp
      | panic => exact absurd hu hs
      | ok i =>
        obtain ⟨h1, h2⟩ := hok i hu
        have h4 := enc_length_pos g i
        simp only [Res.ok_bind]
        rw [marshalLen_eq, slice_tail _ _ h1]
        simp only [Res.ok_bind]
        have IH := (ih (b.drop (i.enc g).length).length (by simp; omega)).2 _ (Nat.le_refl _)
        refine ⟨?_, ?_⟩
        · intro hh
          rcases Res.bind_eq_panic.1 hh with h | ⟨a, _, h⟩
          · exact IH.1 h
          · cases h
        · intro is hi
          obtain ⟨cs, hcs, hi⟩ := Res.bind_eq_ok.1 hi
          cases hi
          rw [encList, IH.2 cs hcs]
          have := List.take_append_drop (i.enc g).length b
          rwa [h2] at this

/-! ### Decoding an encoding -/

theorem encHdr_append (t : IEType) (len eid : UInt16) (rest : Bytes) :
    (encHdr t len eid ++ rest).take 2 = be16 t ∧
    ((encHdr t len eid ++ rest).drop 2).take 2 = be16 len ∧
    (isVendor t = true → ((encHdr t len eid ++ rest).drop 4).take 2 = be16 eid) := by
  unfold encHdr
  refine ⟨?_, ?_, ?_⟩
  · simp
  · simp
  · intro hv
    have d1 : List.drop 4 (be16 t) = [] := List.drop_eq_nil_of_le (by simp)
    simp [hv, List.drop_append, d1]

mutual
theorem parse_enc (g : IEType → Bool) : (i : IE) → i.WF g → (rest : Bytes) →
    parse g (i.enc g ++ rest) = .ok i
  | ⟨t, len, eid, p, cs⟩, hwf, rest => by
    obtain ⟨hlen, heid, hbody⟩ := hwf
    have hb : (if g t then encList g cs else p) = p := by
      by_cases hg : g t = true
      · simp only [hg, if_true] at hbody ⊢; exact hbody.1.symm
      · simp [hg]
    have h4 := hdrLen_pos t
    rw [parse_unfold, parseBody_eq]
    simp only [IE.enc, hb]
    obtain ⟨e1, e2, e3⟩ := encHdr_append t len eid (p ++ rest)
    rw [List.append_assoc, e1, e2, dec16_be16, dec16_be16]
    have hL : (encHdr t len eid ++ (p ++ rest)).length = hdrLen t + (p.length + rest.length) := by simp
    simp only [hL]
    rw [if_neg (by omega)]
    have hcalc : len.toNat - (hdrLen t - 4) = p.length := by
      rw [hlen]; unfold hdrLen; split <;> omega
    have h6 : ¬ (isVendor t = true ∧ hdrLen t + (p.length + rest.length) < 6) := by
      rintro ⟨hv, h⟩; simp [hdrLen, hv] at h; omega
    have h2 : ¬ (isVendor t = true ∧ len.toNat < 2) := by
      rintro ⟨hv, h⟩; simp [hv] at hlen; omega
    rw [if_neg h6, if_neg h2]
    have heid' : (if isVendor t then
        dec16 (((encHdr t len eid ++ (p ++ rest)).drop 4).take 2) else 0) = eid := by
      by_cases hv : isVendor t = true
      · rw [if_pos hv, e3 hv, dec16_be16]
      · rw [if_neg hv]; exact (heid (by simpa using hv)).symm
    simp only [heid', hcalc]
    have hdrop : (encHdr t len eid ++ (p ++ rest)).drop (hdrLen t) = p ++ rest :=
      List.drop_left' (by simp)
    rw [hdrop, List.take_left]
    by_cases h7 : hdrLen t + (p.length + rest.length) ≤ hdrLen t
    · rw [if_pos h7]
      have hp0 : p = [] := List.eq_nil_of_length_eq_zero (by omega)
      by_cases hg : g t = true
      · simp only [hg, if_true] at hbody
        have hcs : cs = [] := by
          cases cs with
          | nil => rfl
          | cons c cs =>
            have := enc_length_pos g c
            have h := hbody.1
            rw [hp0, encList] at h
            have := congrArg List.length h
            simp at this
            omega
        rw [hp0, hcs]
      · simp only [hg] at hbody
        rw [hp0]
        simp at hbody
        rw [hbody]
    · rw [if_neg h7, if_neg (by omega)]
      by_cases hg : g t = true
      · simp only [hg, if_true] at hbody ⊢
        have := parseMulti_enc g cs hbody.2
        rw [hbody.1, this]
        rfl
      · simp only [hg] at hbody ⊢
        simp at hbody
        simp [hbody]
theorem parseMulti_enc (g : IEType → Bool) : (is : List IE) → WFList g is →
    parseMulti g (encList g is) = .ok is
  | [], _ => by simp [encList, parseMulti_nil]
  | c :: cs, h => by
    have h4 := enc_length_pos g c
    rw [parseMulti_unfold _ _ (by
      intro hn
      have := congrArg List.length hn
      simp [encList] at this
      have := this.1
      rw [this] at h4
      simp at h4)]
    simp only [encList]
    rw [parse_enc g c h.1 (encList g cs)]
    simp only [Res.ok_bind]
    rw [marshalLen_eq, slice_tail _ _ (by simp), List.drop_left, Res.ok_bind,
      parseMulti_enc g cs h.2]
    rfl
end

end Pfcp
