/-
Incomplete input (C93): which byte strings can be completed to a sequence of elements that is accepted, and what the
errors of the decoder tell about it. Definitions and helper lemmas; nothing here is part of the Go code.
-/
import Verif.IE.Accept

namespace Pfcp

/-- Number of octets of the contents of an element that announces `len`. -/
def contents (t : IEType) (len : UInt16) : Nat := len.toNat - if isVendor t then 2 else 0

/-- No further octets make an accepted sequence of this: somewhere behind complete elements there is a vendor-specific
header announcing less than its enterprise id, a complete group whose contents are not accepted, or the beginning of a
group whose contents cannot be completed to the announced number of octets. -/
inductive Hopeless (g : IEType → Bool) : Bytes → Prop
  | vendor (t : IEType) (len : UInt16) (rest : Bytes) : isVendor t = true → len.toNat < 2 →
      Hopeless g (be16 t ++ be16 len ++ rest)
  | group (t : IEType) (len eid : UInt16) (body rest : Bytes) :
      len.toNat = (if isVendor t then 2 else 0) + body.length → g t = true → ¬ Accepted g body →
      Hopeless g (encHdr t len eid ++ body ++ rest)
  | begun (t : IEType) (len eid : UInt16) (b : Bytes) : (isVendor t = true → 2 ≤ len.toNat) → g t = true → b ≠ [] →
      b.length < contents t len → (∀ r : Bytes, b.length + r.length = contents t len → ¬ Accepted g (b ++ r)) →
      Hopeless g (encHdr t len eid ++ b)
  | later (t : IEType) (len eid : UInt16) (body rest : Bytes) :
      len.toNat = (if isVendor t then 2 else 0) + body.length → (g t = true → Accepted g body) → Hopeless g rest →
      Hopeless g (encHdr t len eid ++ body ++ rest)

variable (g : IEType → Bool)

/-- How any byte string begins. -/
theorem split_first (b : Bytes) : b = [] ∨ (b ≠ [] ∧ b.length < 4) ∨
    (∃ t len rest, b = be16 t ++ be16 len ++ rest ∧ isVendor t = true ∧ len.toNat < 2) ∨
    (∃ t len x, b = be16 t ++ be16 len ++ x ∧ isVendor t = true ∧ 2 ≤ len.toNat ∧ x.length < 2) ∨
    (∃ t len eid body rest, b = encHdr t len eid ++ body ++ rest ∧
      len.toNat = (if isVendor t then 2 else 0) + body.length) ∨
    (∃ t len eid c, b = encHdr t len eid ++ c ∧ (isVendor t = true → 2 ≤ len.toNat) ∧ c.length < contents t len) := by
  by_cases h0 : b = []
  · exact .inl h0
  by_cases h4 : b.length < 4
  · exact .inr (.inl ⟨h0, h4⟩)
  have e2 : be16 (dec16 (b.take 2)) = b.take 2 := be16_dec16 _ (by simp; omega)
  have e4 : be16 (dec16 ((b.drop 2).take 2)) = (b.drop 2).take 2 := be16_dec16 _ (by simp; omega)
  have eb : b = b.take 2 ++ (b.drop 2).take 2 ++ b.drop 4 := by
    have h1 := List.take_append_drop 2 b
    have h2 := List.take_append_drop 2 (b.drop 2)
    rw [List.drop_drop] at h2
    conv => lhs; rw [← h1, ← h2]
    rw [List.append_assoc]
  by_cases hv : isVendor (dec16 (b.take 2)) = true
  · by_cases hl : (dec16 ((b.drop 2).take 2)).toNat < 2
    · exact .inr (.inr (.inl ⟨_, _, b.drop 4, by rw [e2, e4]; exact eb, hv, hl⟩))
    · by_cases h6 : b.length < 6
      · exact .inr (.inr (.inr (.inl ⟨dec16 (b.take 2), dec16 ((b.drop 2).take 2), b.drop 4, by rw [e2, e4]; exact eb, hv,
          by omega, by simp; omega⟩)))
      · have hh := take_hdr b _ _ _ rfl rfl rfl (by simp only [hdrLen, hv, if_true]; omega)
        have hb := List.take_append_drop (hdrLen (dec16 (b.take 2))) b
        rw [← hh] at hb
        have hlen : hdrLen (dec16 (b.take 2)) = 6 := by simp [hdrLen, hv]
        generalize dec16 (b.take 2) = t at *
        generalize dec16 ((b.drop 2).take 2) = len at *
        generalize (if isVendor t then dec16 ((b.drop 4).take 2) else 0) = eid at *
        by_cases hc : contents t len ≤ (b.drop (hdrLen t)).length
        · refine .inr (.inr (.inr (.inr (.inl ⟨t, len, eid, (b.drop (hdrLen t)).take (contents t len),
            (b.drop (hdrLen t)).drop (contents t len), ?_, ?_⟩))))
          · rw [List.append_assoc, List.take_append_drop]; exact hb.symm
          · rw [List.length_take, Nat.min_eq_left hc]
            simp only [contents, hv, if_true]; omega
        · exact .inr (.inr (.inr (.inr (.inr ⟨t, len, eid, _, hb.symm, fun _ => by omega, by omega⟩))))
  · have hh := take_hdr b _ _ _ rfl rfl rfl (by
      have : hdrLen (dec16 (b.take 2)) = 4 := by simp [hdrLen, hv]
      omega)
    have hb := List.take_append_drop (hdrLen (dec16 (b.take 2))) b
    rw [← hh] at hb
    generalize dec16 (b.take 2) = t at *
    generalize dec16 ((b.drop 2).take 2) = len at *
    generalize (if isVendor t then dec16 ((b.drop 4).take 2) else 0) = eid at *
    by_cases hc : contents t len ≤ (b.drop (hdrLen t)).length
    · refine .inr (.inr (.inr (.inr (.inl ⟨t, len, eid, (b.drop (hdrLen t)).take (contents t len),
        (b.drop (hdrLen t)).drop (contents t len), ?_, ?_⟩))))
      · rw [List.append_assoc, List.take_append_drop]; exact hb.symm
      · rw [List.length_take, Nat.min_eq_left hc]
        simp only [contents, hv]; simp
    · exact .inr (.inr (.inr (.inr (.inr ⟨t, len, eid, _, hb.symm, fun h => absurd h hv, by omega⟩))))

/-! ### The decoder on each beginning -/

theorem multi_err {b : Bytes} {e : GoErr} (hb : b ≠ []) (h : parse g b = .err e) : parseMulti g b = .err e := by
  rw [parseMulti_unfold g b hb, h]; rfl

theorem multi_short {b : Bytes} (hb : b ≠ []) (h : b.length < 4) : parseMulti g b = .err .unexpectedEOF := by
  refine multi_err g hb ?_
  rw [parse_unfold, parseBody_eq, if_pos h]

theorem vendor_heads (t : IEType) (len : UInt16) (x : Bytes) : (be16 t ++ be16 len ++ x).take 2 = be16 t ∧
    ((be16 t ++ be16 len ++ x).drop 2).take 2 = be16 len := by
  constructor <;> simp

theorem multi_vendor {t : IEType} {len : UInt16} (x : Bytes) (hv : isVendor t = true) (hl : len.toNat < 2) :
    parseMulti g (be16 t ++ be16 len ++ x) = .err (if x.length < 2 then .unexpectedEOF else .invalidLength) := by
  have hL : (be16 t ++ be16 len ++ x).length = 4 + x.length := by simp; omega
  have hne : be16 t ++ be16 len ++ x ≠ [] := fun h => by rw [h] at hL; simp at hL; omega
  refine multi_err g hne ?_
  obtain ⟨e1, e2⟩ := vendor_heads t len x
  rw [parse_unfold, parseBody_eq, e1, e2, dec16_be16, dec16_be16, hL, if_neg (by omega)]
  simp only
  by_cases h6 : x.length < 2
  · rw [if_pos ⟨hv, by omega⟩, if_pos h6]
  · rw [if_neg (by rintro ⟨_, h⟩; omega), if_pos ⟨hv, hl⟩, if_neg h6]

theorem multi_vendor_cut {t : IEType} {len : UInt16} (x : Bytes) (hv : isVendor t = true) (hx : x.length < 2) :
    parseMulti g (be16 t ++ be16 len ++ x) = .err .unexpectedEOF := by
  have hL : (be16 t ++ be16 len ++ x).length = 4 + x.length := by simp; omega
  have hne : be16 t ++ be16 len ++ x ≠ [] := fun h => by rw [h] at hL; simp at hL; omega
  refine multi_err g hne ?_
  obtain ⟨e1, e2⟩ := vendor_heads t len x
  rw [parse_unfold, parseBody_eq, e1, e2, dec16_be16, dec16_be16, hL, if_neg (by omega)]
  simp only
  rw [if_pos ⟨hv, by omega⟩]

theorem multi_begun {t : IEType} {len : UInt16} (eid : UInt16) {c : Bytes} (hl : isVendor t = true → 2 ≤ len.toNat)
    (hc : c ≠ []) (hlt : c.length < contents t len) : parseMulti g (encHdr t len eid ++ c) = .err .unexpectedEOF := by
  have h4 := hdrLen_pos t
  have hL : (encHdr t len eid ++ c).length = hdrLen t + c.length := by simp
  have hpos := List.length_pos_iff.2 hc
  have hne : encHdr t len eid ++ c ≠ [] := fun h => by rw [h] at hL; simp at hL; omega
  refine multi_err g hne ?_
  obtain ⟨e1, e2, _⟩ := encHdr_append t len eid c
  rw [parse_unfold, parseBody_eq, e1, e2, dec16_be16, dec16_be16, hL, if_neg (by omega)]
  simp only
  have h6 : ¬ (isVendor t = true ∧ hdrLen t + c.length < 6) := by
    rintro ⟨hv, h⟩; simp [hdrLen, hv] at h; omega
  have h2 : ¬ (isVendor t = true ∧ len.toNat < 2) := by
    rintro ⟨hv, h⟩; have := hl hv; omega
  have hcon : len.toNat - (hdrLen t - 4) = contents t len := by
    unfold hdrLen contents; split <;> rfl
  rw [if_neg h6, if_neg h2, if_neg (by omega), hcon, if_pos (by omega)]

/-- A complete element in front. -/
theorem multi_closed {t : IEType} {len : UInt16} (eid : UInt16) {body rest : Bytes}
    (hl : len.toNat = (if isVendor t then 2 else 0) + body.length) (hne : body ++ rest ≠ []) :
    (g t = true → ∀ e, parseMulti g body = .err e → parseMulti g (encHdr t len eid ++ body ++ rest) = .err e) ∧
    ((g t = true → Accepted g body) → ∀ e, parseMulti g (encHdr t len eid ++ body ++ rest) = .err e ↔
      parseMulti g rest = .err e) := by
  have hp := parse_tlv g t len eid body rest hl hne
  have h4 := hdrLen_pos t
  have hne' : encHdr t len eid ++ body ++ rest ≠ [] := by
    intro h
    have := congrArg List.length h
    simp at this
    omega
  constructor
  · intro hg e he
    rw [if_pos hg, he] at hp
    exact multi_err g hne' hp
  · intro hacc e
    have key : ∀ i : IE, parse g (encHdr t len eid ++ body ++ rest) = .ok i → i.enc g = encHdr t len eid ++ body →
        (parseMulti g (encHdr t len eid ++ body ++ rest) = .err e ↔ parseMulti g rest = .err e) := by
      intro i hi henc
      rw [parseMulti_unfold g _ hne', hi, Res.ok_bind, marshalLen_eq, henc, slice_tail _ _ (by simp), List.drop_left, Res.ok_bind]
      cases hr : parseMulti g rest with
      | ok is => constructor <;> intro h <;> cases h
      | err e' => exact ⟨fun h => by cases h; rfl, fun h => by cases h; rfl⟩
      | panic => constructor <;> intro h <;> cases h
    by_cases hg : g t = true
    · obtain ⟨cs, hcs⟩ := accepted_parse (hacc hg)
      rw [if_pos hg, hcs, Res.ok_bind] at hp
      have hs := ((parse_sound g body.length).2 body (Nat.le_refl _)).2 cs hcs
      exact key _ hp (enc_grouped _ _ _ _ _ _ (by simp [hg, hs]))
    · rw [if_neg hg] at hp
      exact key _ hp (enc_grouped _ _ _ _ _ _ (by simp [hg]))

/-! ### Hopeless input -/

theorem Hopeless.more {b : Bytes} (h : Hopeless g b) (r : Bytes) : Hopeless g (b ++ r) := by
  induction h with
  | vendor t len rest hv hl => rw [List.append_assoc]; exact .vendor t len (rest ++ r) hv hl
  | group t len eid body rest hl hg hn => rw [List.append_assoc]; exact .group t len eid body (rest ++ r) hl hg hn
  | later t len eid body rest hl ha _ ih => rw [List.append_assoc]; exact .later t len eid body (rest ++ r) hl ha ih
  | begun t len eid c hl hg hc hlt hn =>
    rw [List.append_assoc]
    by_cases hlen : (c ++ r).length < contents t len
    · refine .begun t len eid (c ++ r) hl hg (by simp [hc]) hlen ?_
      intro r' hr'
      rw [List.append_assoc]
      refine hn (r ++ r') ?_
      simp only [List.length_append] at hr' ⊢
      omega
    · simp only [List.length_append] at hlen
      have e : c ++ r = (c ++ r.take (contents t len - c.length)) ++ r.drop (contents t len - c.length) := by
        rw [List.append_assoc, List.take_append_drop]
      rw [e, ← List.append_assoc]
      have hl' : (r.take (contents t len - c.length)).length = contents t len - c.length := by
        rw [List.length_take]; omega
      refine .group t len eid _ _ ?_ hg (hn _ (by omega))
      rw [List.length_append, hl']
      have : contents t len = len.toNat - if isVendor t then 2 else 0 := rfl
      by_cases hv : isVendor t = true
      · have := hl hv
        simp only [hv, if_true] at *
        omega
      · simp only [hv] at *
        simp at *
        omega

theorem not_accepted {b : Bytes} {e : GoErr} (h : parseMulti g b = .err e) : ¬ Accepted g b := by
  intro ha
  obtain ⟨is, hi⟩ := accepted_parse ha
  rw [h] at hi; cases hi

theorem multi_total (b : Bytes) (h : ¬ Accepted g b) : ∃ e, parseMulti g b = .err e := by
  cases hp : parseMulti g b with
  | ok is => exact absurd (parse_accepted_aux g b.length b (Nat.le_refl _) is hp) h
  | err e => exact ⟨e, rfl⟩
  | panic => exact absurd hp ((parse_sound g b.length).2 b (Nat.le_refl _)).1

theorem Hopeless.refused {b : Bytes} (h : Hopeless g b) : ∃ e, parseMulti g b = .err e := by
  induction h with
  | vendor t len rest hv hl => exact ⟨_, multi_vendor g rest hv hl⟩
  | group t len eid body rest hl hg hn =>
    obtain ⟨e, he⟩ := multi_total g body hn
    have hb : body ≠ [] := by
      rintro rfl; exact hn .nil
    exact ⟨e, (multi_closed g eid hl (by simp [hb])).1 hg e he⟩
  | begun t len eid c hl hg hc hlt hn => exact ⟨_, multi_begun g eid hl hc hlt⟩
  | later t len eid body rest hl ha _ ih =>
    obtain ⟨e, he⟩ := ih
    have hr : rest ≠ [] := by
      rintro rfl; rw [parseMulti_nil] at he; cases he
    exact ⟨e, ((multi_closed g eid hl (by simp [hr])).2 ha e).2 he⟩

/-- Whatever is not hopeless can be completed. -/
theorem completed : ∀ (N : Nat) (b : Bytes), b.length ≤ N → ¬ Hopeless g b → ∃ r, Accepted g (b ++ r) := by
  intro N
  induction N with
  | zero =>
    intro b hb _
    have : b = [] := List.length_eq_zero_iff.1 (by omega)
    subst this
    exact ⟨[], .nil⟩
  | succ N ih =>
    intro b hb hn
    -- a header can be completed with octets 0xff
    have pad : ∀ t len x, x.length < 2 → isVendor t = true → 2 ≤ len.toNat → ∃ r, Accepted g (be16 t ++ be16 len ++ x ++ r) := by
      intro t len x hx hv hl
      refine ⟨List.replicate (2 - x.length) 0, ?_⟩
      have e : x ++ List.replicate (2 - x.length) 0 = be16 (dec16 (x ++ List.replicate (2 - x.length) 0)) := by
        rw [be16_dec16]; simp; omega
      rw [List.append_assoc, e]
      have := Accepted.trunc (g := g) t len (dec16 (x ++ List.replicate (2 - x.length) 0)) (fun _ => hl)
      unfold encHdr at this
      rwa [if_pos hv] at this
    rcases split_first b with h | ⟨h0, h4⟩ | ⟨t, len, rest, rfl, hv, hl⟩ | ⟨t, len, x, rfl, hv, hl, hx⟩ |
        ⟨t, len, eid, body, rest, rfl, hl⟩ | ⟨t, len, eid, c, rfl, hl, hlt⟩
    · subst h; exact ⟨[], .nil⟩
    · -- less than a header: fill up with 0xff
      have hlen : ((b ++ List.replicate (4 - b.length) 0xff) : Bytes).length = 4 := by simp; omega
      generalize hq : (b ++ List.replicate (4 - b.length) 0xff : Bytes) = q at hlen
      match q, hlen with
      | [q0, q1, q2, q3], _ =>
        have h3 : q3 = 0xff := by
          have h1 : (b ++ List.replicate (4 - b.length) 0xff : Bytes)[3]? = some 0xff := by
            rw [List.getElem?_append_right (by omega), List.getElem?_replicate, if_pos (by omega)]
          rw [hq] at h1
          simpa using h1
        subst h3
        have e1 : be16 (dec16 [q0, q1]) = [q0, q1] := be16_dec16 _ rfl
        have e2 : be16 (dec16 [q2, 0xff]) = [q2, 0xff] := be16_dec16 _ rfl
        have hl2 : 2 ≤ (dec16 [q2, 0xff]).toNat := by
          have := q2.toNat_lt
          simp only [dec16, beNat, List.foldl_cons, List.foldl_nil, UInt16.toNat_ofNat']
          have h255 : (0xff : UInt8).toNat = 255 := rfl
          rw [h255]
          omega
        by_cases hv : isVendor (dec16 [q0, q1]) = true
        · obtain ⟨r, hr⟩ := pad (dec16 [q0, q1]) (dec16 [q2, 0xff]) [] (by simp) hv hl2
          rw [e1, e2] at hr
          refine ⟨List.replicate (4 - b.length) 0xff ++ r, ?_⟩
          rw [← List.append_assoc, hq]
          simpa using hr
        · refine ⟨List.replicate (4 - b.length) 0xff, ?_⟩
          rw [hq]
          have := Accepted.trunc (g := g) (dec16 [q0, q1]) (dec16 [q2, 0xff]) 0 (fun _ => hl2)
          unfold encHdr at this
          rw [if_neg hv, e1, e2] at this
          simpa using this
    · exact absurd (.vendor t len rest hv hl) hn
    · exact pad t len x hx hv hl
    · by_cases hgb : g t = true ∧ ¬ Accepted g body
      · exact absurd (.group t len eid body rest hl hgb.1 hgb.2) hn
      · have ha : g t = true → Accepted g body := fun h => Classical.byContradiction fun h' => hgb ⟨h, h'⟩
        have h4 := hdrLen_pos t
        obtain ⟨r, hr⟩ := ih rest (by simp at hb; omega) (fun h => hn (.later t len eid body rest hl ha h))
        exact ⟨r, by rw [List.append_assoc]; exact .cons t len eid body (rest ++ r) hl ha hr⟩
    · by_cases hc : c = []
      · subst hc
        exact ⟨[], by simpa using Accepted.trunc (g := g) t len eid hl⟩
      · have hcon : ∀ body : Bytes, body.length = contents t len → len.toNat = (if isVendor t then 2 else 0) + body.length := by
          intro body hb
          rw [hb]
          unfold contents
          by_cases hv : isVendor t = true
          · have := hl hv
            simp only [hv, if_true]; omega
          · simp [hv]
        by_cases hg : g t = true
        · have : ∃ r : Bytes, c.length + r.length = contents t len ∧ Accepted g (c ++ r) := by
            apply Classical.byContradiction
            intro hno
            refine hn (.begun t len eid c hl hg hc hlt ?_)
            intro r hr ha
            exact hno ⟨r, hr, ha⟩
          obtain ⟨r, hr, ha⟩ := this
          refine ⟨r, ?_⟩
          have := Accepted.cons (g := g) t len eid (c ++ r) [] (hcon _ (by simpa using hr)) (fun _ => ha) .nil
          simpa using this
        · refine ⟨List.replicate (contents t len - c.length) 0, ?_⟩
          have := Accepted.cons (g := g) t len eid (c ++ List.replicate (contents t len - c.length) 0) []
            (hcon _ (by simp; omega)) (fun h => absurd h hg) .nil
          simpa using this

end Pfcp
