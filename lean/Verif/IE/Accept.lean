/- Helper lemmas: which byte strings the decoder accepts, and the shape of what it returns. -/
import Verif.IE.Lemmas

namespace Pfcp

mutual
/-- What holds of every decoded element: enterprise id only on vendor types, grouped payload equal to
the encoded children, children only on grouped types. (Well-formedness minus the length field.) -/
def IE.Skel (g : IEType → Bool) : IE → Prop
  | ⟨t, _, eid, p, cs⟩ =>
    (isVendor t = false → eid = 0) ∧
    (if g t then p = encList g cs ∧ SkelList g cs else cs = [])
def SkelList (g : IEType → Bool) : List IE → Prop
  | [] => True
  | c :: cs => c.Skel g ∧ SkelList g cs
end

theorem parse_skel (g : IEType → Bool) : ∀ N : Nat,
    (∀ b : Bytes, b.length ≤ N → ∀ i, parse g b = .ok i → i.Skel g) ∧
    (∀ b : Bytes, b.length ≤ N → ∀ is, parseMulti g b = .ok is → SkelList g is) := by
  intro N
  induction N using Nat.strongRecOn with
  | ind N ih =>
    have hP : ∀ b : Bytes, b.length ≤ N → ∀ i, parse g b = .ok i → i.Skel g := by
      intro b hb i
      rw [parse_unfold, parseBody_eq]
      by_cases h4 : b.length < 4
      · simp [h4]
      simp only [h4, if_false]
      generalize ht : dec16 (b.take 2) = t
      generalize hlen : dec16 ((b.drop 2).take 2) = len
      by_cases h6 : isVendor t = true ∧ b.length < 6
      · rw [if_pos h6]; simp
      rw [if_neg h6]
      by_cases h2 : isVendor t = true ∧ len.toNat < 2
      · rw [if_pos h2]; simp
      rw [if_neg h2]
      have heid : isVendor t = false →
          (if isVendor t then dec16 ((b.drop 4).take 2) else 0) = 0 := by
        intro h; simp [h]
      generalize (if isVendor t then dec16 ((b.drop 4).take 2) else 0) = eid at heid
      by_cases h7 : b.length ≤ hdrLen t
      · rw [if_pos h7]
        intro hi; cases hi
        exact ⟨heid, by split <;> simp [encList, SkelList]⟩
      rw [if_neg h7]
      generalize hend : len.toNat - (hdrLen t - 4) = endd
      by_cases h8 : b.length < hdrLen t + endd
      · rw [if_pos h8]; simp
      rw [if_neg h8]
      generalize hp : (b.drop (hdrLen t)).take endd = payload
      have hplen : payload.length = endd := by rw [← hp]; simp; omega
      by_cases hg : g t = true
      · rw [if_pos hg]
        intro hi
        obtain ⟨cs, hcs, hi⟩ := Res.bind_eq_ok.1 hi
        cases hi
        have h4' := hdrLen_pos t
        have hs := (ih payload.length (by omega)).2 payload (Nat.le_refl _) cs hcs
        have hl := ((parse_sound g payload.length).2 payload (Nat.le_refl _)).2 cs hcs
        exact ⟨heid, by simp [hg, hl, hs]⟩
      · rw [if_neg hg]
        intro hi; cases hi
        exact ⟨heid, by simp [hg]⟩
    refine ⟨hP, ?_⟩
    intro b hb is
    by_cases hb0 : b = []
    · subst hb0; rw [parseMulti_nil]; intro h; cases h; trivial
    · rw [parseMulti_unfold g b hb0]
      intro h
      obtain ⟨i, hi, h⟩ := Res.bind_eq_ok.1 h
      obtain ⟨rest, hr, h⟩ := Res.bind_eq_ok.1 h
      obtain ⟨cs, hcs, h⟩ := Res.bind_eq_ok.1 h
      cases h
      have := slice_marshalLen_length b rest _ hr
      have := marshalLen_pos g i
      have hb1 : b.length ≠ 0 := by simpa using hb0
      exact ⟨hP b hb i hi, (ih rest.length (by omega)).2 rest (Nat.le_refl _) cs hcs⟩

theorem parse_Skel {g : IEType → Bool} {b : Bytes} {i : IE} (h : parse g b = .ok i) : i.Skel g :=
  (parse_skel g b.length).1 b (Nat.le_refl _) i h

theorem parseMulti_Skel {g : IEType → Bool} {b : Bytes} {is : List IE}
    (h : parseMulti g b = .ok is) : SkelList g is :=
  (parse_skel g b.length).2 b (Nat.le_refl _) is h

mutual
theorem nodes_le (g : IEType → Bool) : (i : IE) → i.Skel g → 4 * i.nodes ≤ (i.enc g).length
  | ⟨t, len, eid, p, cs⟩, h => by
    have h4 := hdrLen_pos t
    simp only [IE.nodes, IE.enc, List.length_append, encHdr_length]
    by_cases hg : g t = true
    · simp only [IE.Skel, hg, if_true] at h ⊢
      have := nodesList_le g cs h.2.2
      omega
    · simp only [IE.Skel, hg] at h ⊢
      have hcs : cs = [] := by simpa using h.2
      subst hcs
      simp [nodesList]
      omega
theorem nodesList_le (g : IEType → Bool) : (is : List IE) → SkelList g is →
    4 * nodesList is ≤ (encList g is).length
  | [], _ => by simp [nodesList]
  | c :: cs, h => by
    have h1 := nodes_le g c h.1
    have h2 := nodesList_le g cs h.2
    simp only [nodesList, encList, List.length_append]
    omega
end

mutual
theorem depth_le : (i : IE) → i.depth ≤ i.nodes
  | ⟨t, len, eid, p, cs⟩ => by
    have := depthList_le cs
    simp only [IE.depth, IE.nodes]; omega
theorem depthList_le : (is : List IE) → depthList is ≤ nodesList is
  | [] => by simp [depthList]
  | c :: cs => by
    have h1 := depth_le c
    have h2 := depthList_le cs
    simp only [depthList, nodesList]; omega
end

/-! ### The accepted language -/

/-- A sequence of complete type-length-value elements, grouped bodies being such sequences again. -/
inductive Complete (g : IEType → Bool) : Bytes → Prop
  | nil : Complete g []
  | cons (t : IEType) (len eid : UInt16) (body rest : Bytes) :
      len.toNat = (if isVendor t then 2 else 0) + body.length →
      (g t = true → Complete g body) → Complete g rest →
      Complete g (encHdr t len eid ++ body ++ rest)

/-- What the decoder actually accepts: as `Complete`, but the very last thing in any (nested)
sequence may be a bare element header announcing payload that is not there. -/
inductive Accepted (g : IEType → Bool) : Bytes → Prop
  | nil : Accepted g []
  | trunc (t : IEType) (len eid : UInt16) : (isVendor t = true → 2 ≤ len.toNat) →
      Accepted g (encHdr t len eid)
  | cons (t : IEType) (len eid : UInt16) (body rest : Bytes) :
      len.toNat = (if isVendor t then 2 else 0) + body.length →
      (g t = true → Accepted g body) → Accepted g rest →
      Accepted g (encHdr t len eid ++ body ++ rest)

theorem Complete.accepted {g : IEType → Bool} {b : Bytes} (h : Complete g b) : Accepted g b := by
  induction h with
  | nil => exact .nil
  | cons t len eid body rest hl _ _ ih1 ih2 => exact .cons t len eid body rest hl ih1 ih2

/-- Decoding a header followed by exactly the announced body. -/
theorem parse_tlv (g : IEType → Bool) (t : IEType) (len eid : UInt16) (body rest : Bytes)
    (hlen : len.toNat = (if isVendor t then 2 else 0) + body.length)
    (hne : body ++ rest ≠ []) :
    parse g (encHdr t len eid ++ body ++ rest) =
      if g t then (parseMulti g body >>= fun cs =>
        .ok ⟨t, len, if isVendor t then eid else 0, body, cs⟩)
      else .ok ⟨t, len, if isVendor t then eid else 0, body, []⟩ := by
  have h4 := hdrLen_pos t
  have hpos : 0 < body.length + rest.length := by
    rw [← List.length_append]; exact List.length_pos_iff.2 hne
  rw [parse_unfold, parseBody_eq]
  obtain ⟨e1, e2, e3⟩ := encHdr_append t len eid (body ++ rest)
  rw [List.append_assoc, e1, e2, dec16_be16, dec16_be16]
  have hL : (encHdr t len eid ++ (body ++ rest)).length
      = hdrLen t + (body.length + rest.length) := by simp
  simp only [hL]
  rw [if_neg (by omega)]
  have hcalc : len.toNat - (hdrLen t - 4) = body.length := by
    rw [hlen]; unfold hdrLen; split <;> omega
  have h6 : ¬ (isVendor t = true ∧ hdrLen t + (body.length + rest.length) < 6) := by
    rintro ⟨hv, h⟩; simp [hdrLen, hv] at h; omega
  have h2 : ¬ (isVendor t = true ∧ len.toNat < 2) := by
    rintro ⟨hv, h⟩; simp [hv] at hlen; omega
  rw [if_neg h6, if_neg h2]
  have heid' : (if isVendor t then
      dec16 (((encHdr t len eid ++ (body ++ rest)).drop 4).take 2) else 0)
      = if isVendor t then eid else 0 := by
    by_cases hv : isVendor t = true
    · rw [if_pos hv, if_pos hv, e3 hv, dec16_be16]
    · rw [if_neg hv, if_neg hv]
  simp only [heid', hcalc]
  have hdrop : (encHdr t len eid ++ (body ++ rest)).drop (hdrLen t) = body ++ rest :=
    List.drop_left' (by simp)
  rw [hdrop, List.take_left, if_neg (by omega), if_neg (by omega)]

/-- Decoding a bare header at the end of the input. -/
theorem parse_bare (g : IEType → Bool) (t : IEType) (len eid : UInt16)
    (hlen : isVendor t = true → 2 ≤ len.toNat) :
    parse g (encHdr t len eid) = .ok ⟨t, len, if isVendor t then eid else 0, [], []⟩ := by
  have h4 := hdrLen_pos t
  rw [parse_unfold, parseBody_eq]
  obtain ⟨e1, e2, e3⟩ := encHdr_append t len eid []
  rw [List.append_nil] at e1 e2 e3
  rw [e1, e2, dec16_be16, dec16_be16]
  simp only [encHdr_length]
  rw [if_neg (by omega)]
  have h6 : ¬ (isVendor t = true ∧ hdrLen t < 6) := by
    rintro ⟨hv, h⟩; simp [hdrLen, hv] at h
  have h2 : ¬ (isVendor t = true ∧ len.toNat < 2) := by
    rintro ⟨hv, h⟩; have := hlen hv; omega
  rw [if_neg h6, if_neg h2]
  have heid' : (if isVendor t then dec16 (((encHdr t len eid).drop 4).take 2) else 0)
      = if isVendor t then eid else 0 := by
    by_cases hv : isVendor t = true
    · rw [if_pos hv, if_pos hv, e3 hv, dec16_be16]
    · rw [if_neg hv, if_neg hv]
  simp only [heid', Nat.le_refl, if_true]

theorem enc_grouped (g : IEType → Bool) (t : IEType) (len eid : UInt16) (p : Bytes) (cs : List IE)
    (h : (if g t then encList g cs else p) = p) :
    (IE.mk t len (if isVendor t then eid else 0) p cs).enc g = encHdr t len eid ++ p := by
  simp only [IE.enc, h]
  unfold encHdr
  split <;> simp

/-- Step of the converse direction: an accepted head element plus an accepted remainder. -/
theorem parseMulti_step {g : IEType → Bool} {b : Bytes} {i : IE} {rest : Bytes} {is : List IE}
    (hb : b = i.enc g ++ rest) (hi : parse g b = .ok i) (hr : parseMulti g rest = .ok is) :
    parseMulti g b = .ok (i :: is) := by
  have h4 := enc_length_pos g i
  have hne : b ≠ [] := by
    intro h; rw [h] at hb
    have := congrArg List.length hb
    simp at this
    omega
  rw [parseMulti_unfold g b hne, hi, Res.ok_bind, marshalLen_eq]
  subst hb
  rw [slice_tail _ _ (by simp), List.drop_left, Res.ok_bind, hr]
  rfl

theorem accepted_parse {g : IEType → Bool} {b : Bytes} (h : Accepted g b) :
    ∃ is, parseMulti g b = .ok is := by
  induction h with
  | nil => exact ⟨[], parseMulti_nil g⟩
  | trunc t len eid hl =>
    have hp := parse_bare g t len eid hl
    refine ⟨_, parseMulti_step (rest := []) ?_ hp (parseMulti_nil g)⟩
    rw [enc_grouped _ _ _ _ _ _ (by split <;> simp [encList])]
    simp
  | cons t len eid body rest hl _ _ ih1 ih2 =>
    obtain ⟨is, hr⟩ := ih2
    by_cases hne : body ++ rest = []
    · simp only [List.append_eq_nil_iff] at hne
      obtain ⟨rfl, rfl⟩ := hne
      have hp := parse_bare g t len eid (by intro hv; simp [hv] at hl; omega)
      refine ⟨_, parseMulti_step (rest := []) ?_ (by simpa using hp) (parseMulti_nil g)⟩
      rw [enc_grouped _ _ _ _ _ _ (by split <;> simp [encList])]
    · have hp := parse_tlv g t len eid body rest hl hne
      by_cases hg : g t = true
      · obtain ⟨cs, hcs⟩ := ih1 hg
        rw [if_pos hg, hcs, Res.ok_bind] at hp
        refine ⟨_, parseMulti_step (rest := rest) ?_ hp hr⟩
        have hl := ((parse_sound g body.length).2 body (Nat.le_refl _)).2 cs hcs
        rw [enc_grouped _ _ _ _ _ _ (by simp [hg, hl])]
      · rw [if_neg hg] at hp
        refine ⟨_, parseMulti_step (rest := rest) ?_ hp hr⟩
        rw [enc_grouped _ _ _ _ _ _ (by simp [hg])]

theorem parse_accepted_aux (g : IEType → Bool) : ∀ N : Nat, ∀ b : Bytes, b.length ≤ N →
    ∀ is, parseMulti g b = .ok is → Accepted g b := by
  intro N
  induction N using Nat.strongRecOn with
  | ind N ih =>
    intro b hb is
    by_cases hb0 : b = []
    · subst hb0; intro _; exact .nil
    rw [parseMulti_unfold g b hb0]
    intro h
    obtain ⟨i, hi, h⟩ := Res.bind_eq_ok.1 h
    obtain ⟨rest, hr, h⟩ := Res.bind_eq_ok.1 h
    obtain ⟨cs, hcs, h⟩ := Res.bind_eq_ok.1 h
    obtain ⟨hle, htake⟩ := ((parse_sound g b.length).1 b (Nat.le_refl _)).2 i hi
    have h4 := enc_length_pos g i
    rw [marshalLen_eq, slice_tail _ _ hle] at hr
    cases hr
    have hrest := ih (b.drop (i.enc g).length).length (by simp; omega) _ (Nat.le_refl _) cs hcs
    have hsplit : b = i.enc g ++ b.drop (i.enc g).length := by
      have := List.take_append_drop (i.enc g).length b
      rw [htake] at this; exact this.symm
    generalize hrb : b.drop (i.enc g).length = rb at hrest hsplit
    -- redo the head decoding to see its header
    rw [parse_unfold, parseBody_eq] at hi
    by_cases h4 : b.length < 4
    · simp [h4] at hi
    simp only [h4, if_false] at hi
    generalize ht : dec16 (b.take 2) = t at hi
    generalize hlen : dec16 ((b.drop 2).take 2) = len at hi
    by_cases h6 : isVendor t = true ∧ b.length < 6
    · rw [if_pos h6] at hi; cases hi
    rw [if_neg h6] at hi
    by_cases h2 : isVendor t = true ∧ len.toNat < 2
    · rw [if_pos h2] at hi; cases hi
    rw [if_neg h2] at hi
    generalize he : (if isVendor t then dec16 ((b.drop 4).take 2) else 0) = eid at hi
    have hle' : hdrLen t ≤ b.length := by
      unfold hdrLen
      split
      · rename_i hv; have : ¬ b.length < 6 := fun h => h6 ⟨hv, h⟩; omega
      · omega
    by_cases h7 : b.length ≤ hdrLen t
    · have hhdr := take_hdr b t eid len ht.symm hlen.symm he.symm hle'
      rw [List.take_of_length_le h7] at hhdr
      rw [← hhdr]
      apply Accepted.trunc
      intro hv
      have : ¬ len.toNat < 2 := fun h => h2 ⟨hv, h⟩
      omega
    rw [if_neg h7] at hi
    generalize hend : len.toNat - (hdrLen t - 4) = endd at hi
    by_cases h8 : b.length < hdrLen t + endd
    · rw [if_pos h8] at hi; cases hi
    rw [if_neg h8] at hi
    generalize hp : (b.drop (hdrLen t)).take endd = payload at hi
    have hplen : payload.length = endd := by rw [← hp]; simp; omega
    have hll : len.toNat = (if isVendor t then 2 else 0) + payload.length := by
      rw [hplen, ← hend]
      unfold hdrLen
      by_cases hv : isVendor t = true
      · have : ¬ len.toNat < 2 := fun h => h2 ⟨hv, h⟩
        simp [hv]; omega
      · simp [hv]
    have h4' := hdrLen_pos t
    by_cases hg : g t = true
    · rw [if_pos hg] at hi
      obtain ⟨ds, hds, hi⟩ := Res.bind_eq_ok.1 hi
      cases hi
      have hl := ((parse_sound g payload.length).2 payload (Nat.le_refl _)).2 ds hds
      have hacc := ih payload.length (by omega) payload (Nat.le_refl _) ds hds
      rw [hsplit]
      simp only [IE.enc, hg, if_true, hl]
      exact .cons t len eid payload rb hll (fun _ => hacc) hrest
    · rw [if_neg hg] at hi
      cases hi
      rw [hsplit]
      simp only [IE.enc, hg]
      exact .cons t len eid payload rb hll (fun h => absurd h hg) hrest

/-- A decoded complete sequence is well-formed. -/
theorem complete_parse {g : IEType → Bool} {b : Bytes} (h : Complete g b) :
    ∃ is, parseMulti g b = .ok is ∧ WFList g is := by
  induction h with
  | nil => exact ⟨[], parseMulti_nil g, trivial⟩
  | cons t len eid body rest hl _ _ ih1 ih2 =>
    obtain ⟨is, hr, hwr⟩ := ih2
    have hveid : isVendor t = false → (if isVendor t then eid else 0) = 0 := by
      intro h; simp [h]
    by_cases hne : body ++ rest = []
    · simp only [List.append_eq_nil_iff] at hne
      obtain ⟨rfl, rfl⟩ := hne
      have hp := parse_bare g t len eid (by intro hv; simp [hv] at hl; omega)
      refine ⟨_, parseMulti_step (rest := []) ?_ (by simpa using hp) (parseMulti_nil g), ?_⟩
      · rw [enc_grouped _ _ _ _ _ _ (by split <;> simp [encList])]
      · exact ⟨⟨hl, hveid, by split <;> simp [encList, WFList]⟩, trivial⟩
    · have hp := parse_tlv g t len eid body rest hl hne
      by_cases hg : g t = true
      · obtain ⟨cs, hcs, hwc⟩ := ih1 hg
        rw [if_pos hg, hcs, Res.ok_bind] at hp
        have hlc := ((parse_sound g body.length).2 body (Nat.le_refl _)).2 cs hcs
        refine ⟨_, parseMulti_step (rest := rest) ?_ hp hr, ?_⟩
        · rw [enc_grouped _ _ _ _ _ _ (by simp [hg, hlc])]
        · exact ⟨⟨hl, hveid, by simp [hg, hlc, hwc]⟩, hwr⟩
      · rw [if_neg hg] at hp
        refine ⟨_, parseMulti_step (rest := rest) ?_ hp hr, ?_⟩
        · rw [enc_grouped _ _ _ _ _ _ (by simp [hg])]
        · exact ⟨⟨hl, hveid, by simp [hg]⟩, hwr⟩

mutual
theorem WF.complete (g : IEType → Bool) : (i : IE) → i.WF g → ∀ rest, Complete g rest →
    Complete g (i.enc g ++ rest)
  | ⟨t, len, eid, p, cs⟩, h, rest, hr => by
    obtain ⟨hl, _, hb⟩ := h
    by_cases hg : g t = true
    · simp only [hg, if_true] at hb
      have := WFList.complete g cs hb.2
      simp only [IE.enc, hg, if_true]
      rw [← hb.1] at this ⊢
      exact .cons t len eid p rest hl (fun _ => this) hr
    · simp only [IE.enc, hg]
      exact .cons t len eid p rest hl (fun h => absurd h hg) hr
theorem WFList.complete (g : IEType → Bool) : (is : List IE) → WFList g is →
    Complete g (encList g is)
  | [], _ => .nil
  | c :: cs, h => by
    simp only [encList]
    exact WF.complete g c h.1 _ (WFList.complete g cs h.2)
end

end Pfcp
