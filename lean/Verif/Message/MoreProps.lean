/-
C93: what the errors of the decoder say about the octets still to come.
-/
import Verif.IE.More
import Verif.Message.LengthExact

namespace Pfcp

variable (g : IEType → Bool)

/-- C93, exactly: no continuation of these octets is a sequence of elements the decoder accepts. -/
theorem C93_hopeless_iff (b : Bytes) : (∀ r, ¬ ∃ is, parseMulti g (b ++ r) = .ok is) ↔ Hopeless g b := by
  constructor
  · intro h
    apply Classical.byContradiction
    intro hn
    obtain ⟨r, hr⟩ := completed g b.length b (Nat.le_refl _) hn
    exact h r (accepted_parse hr)
  · rintro h r ⟨is, hi⟩
    obtain ⟨e, he⟩ := (h.more g r).refused g
    rw [he] at hi; cases hi

/-- Both kinds exist. -/
example : Hopeless (defaultGroupedTypes.contains ·) [0, 1, 0, 5, 0, 56, 0, 2, 1] := by
  refine .group 1 5 0 [0, 56, 0, 2, 1] [] rfl (by decide +kernel) ?_
  exact not_accepted _ (e := .unexpectedEOF) (multi_begun _ (t := 56) (len := 2) 0 (c := [1]) (by decide) (by decide) (by decide))

/-- C93 (a). Decoding fails in two ways only. -/
theorem C93_two_errors (b : Bytes) (e : GoErr) (h : parseMulti g b = .err e) : e = .unexpectedEOF ∨ e = .invalidLength := by
  suffices H : ∀ (N : Nat) (b : Bytes), b.length ≤ N → parseMulti g b = .err e → e = .unexpectedEOF ∨ e = .invalidLength from
    H b.length b (Nat.le_refl _) h
  intro N
  induction N with
  | zero =>
    intro b hb h
    rw [List.length_eq_zero_iff.1 (Nat.le_zero.1 hb), parseMulti_nil] at h
    cases h
  | succ N ih =>
    intro b hb h
    rcases split_first b with h0 | ⟨h0, h4⟩ | ⟨t, len, rest, rfl, hv, hl⟩ | ⟨t, len, x, rfl, hv, hl, hx⟩ |
        ⟨t, len, eid, body, rest, rfl, hl⟩ | ⟨t, len, eid, c, rfl, hl, hlt⟩
    · rw [h0, parseMulti_nil] at h; cases h
    · rw [multi_short g h0 h4] at h; cases h; exact .inl rfl
    · rw [multi_vendor g rest hv hl] at h
      cases h
      split
      · exact .inl rfl
      · exact .inr rfl
    · rw [multi_vendor_cut g x hv hx] at h; cases h; exact .inl rfl
    · have h4 := hdrLen_pos t
      simp only [List.length_append, encHdr_length] at hb
      by_cases hne : body ++ rest = []
      · obtain ⟨rfl, rfl⟩ := List.append_eq_nil_iff.1 hne
        obtain ⟨is, hi⟩ := accepted_parse (Accepted.trunc (g := g) t len eid (fun hv => by simp [hv] at hl; omega))
        simp only [List.append_nil] at h
        rw [hi] at h; cases h
      · by_cases hgb : g t = true ∧ ¬ Accepted g body
        · obtain ⟨e', he'⟩ := multi_total g body hgb.2
          have := (multi_closed g eid hl hne).1 hgb.1 e' he'
          rw [this] at h
          cases h
          exact ih body (by omega) he'
        · have ha : g t = true → Accepted g body := fun h => Classical.byContradiction fun h' => hgb ⟨h, h'⟩
          exact ih rest (by omega) (((multi_closed g eid hl hne).2 ha e).1 h)
    · by_cases hc : c = []
      · subst hc
        obtain ⟨is, hi⟩ := accepted_parse (Accepted.trunc (g := g) t len eid hl)
        simp only [List.append_nil] at h
        rw [hi] at h; cases h
      · rw [multi_begun g eid hl hc hlt] at h; cases h; exact .inl rfl

/-- C93 (b). ErrInvalidLength is final: whatever follows, the answer stays the same. -/
theorem C93_invalid_length (b : Bytes) (h : parseMulti g b = .err .invalidLength) (r : Bytes) :
    parseMulti g (b ++ r) = .err .invalidLength := by
  suffices H : ∀ (N : Nat) (b : Bytes), b.length ≤ N → parseMulti g b = .err .invalidLength →
      parseMulti g (b ++ r) = .err .invalidLength from H b.length b (Nat.le_refl _) h
  intro N
  induction N with
  | zero =>
    intro b hb h
    rw [List.length_eq_zero_iff.1 (Nat.le_zero.1 hb), parseMulti_nil] at h
    cases h
  | succ N ih =>
    intro b hb h
    rcases split_first b with h0 | ⟨h0, h4⟩ | ⟨t, len, rest, rfl, hv, hl⟩ | ⟨t, len, x, rfl, hv, hl, hx⟩ |
        ⟨t, len, eid, body, rest, rfl, hl⟩ | ⟨t, len, eid, c, rfl, hl, hlt⟩
    · rw [h0, parseMulti_nil] at h; cases h
    · rw [multi_short g h0 h4] at h; cases h
    · rw [multi_vendor g rest hv hl] at h
      split at h
      · cases h
      · rename_i h2
        rw [List.append_assoc, multi_vendor g (rest ++ r) hv hl, if_neg (by simp only [List.length_append]; omega)]
    · rw [multi_vendor_cut g x hv hx] at h; cases h
    · have h4 := hdrLen_pos t
      simp only [List.length_append, encHdr_length] at hb
      by_cases hne : body ++ rest = []
      · obtain ⟨rfl, rfl⟩ := List.append_eq_nil_iff.1 hne
        obtain ⟨is, hi⟩ := accepted_parse (Accepted.trunc (g := g) t len eid (fun hv => by simp [hv] at hl; omega))
        simp only [List.append_nil] at h
        rw [hi] at h; cases h
      · have hne' : body ++ (rest ++ r) ≠ [] := by
          rw [← List.append_assoc]; exact fun h0 => hne (List.append_eq_nil_iff.1 h0).1
        rw [List.append_assoc]
        by_cases hgb : g t = true ∧ ¬ Accepted g body
        · obtain ⟨e', he'⟩ := multi_total g body hgb.2
          have := (multi_closed g eid hl hne).1 hgb.1 e' he'
          rw [this] at h
          cases h
          exact (multi_closed g eid hl hne').1 hgb.1 _ he'
        · have ha : g t = true → Accepted g body := fun h => Classical.byContradiction fun h' => hgb ⟨h, h'⟩
          have := ih rest (by omega) (((multi_closed g eid hl hne).2 ha _).1 h)
          exact ((multi_closed g eid hl hne').2 ha _).2 this
    · by_cases hc : c = []
      · subst hc
        obtain ⟨is, hi⟩ := accepted_parse (Accepted.trunc (g := g) t len eid hl)
        simp only [List.append_nil] at h
        rw [hi] at h; cases h
      · rw [multi_begun g eid hl hc hlt] at h; cases h

example : parseMulti (defaultGroupedTypes.contains ·) [0x80, 1, 0, 1, 0, 7] = .err .invalidLength :=
  multi_vendor _ (t := 0x8001) (len := 1) [0, 7] (by decide) (by decide)

/-- C93 is false as stated: io.ErrUnexpectedEOF is also the answer to a complete group whose last child announces more
than the group has, and nothing that follows changes it. -/
theorem C93_unexpected_eof_violated :
    ¬ ∀ b, parseMulti (defaultGroupedTypes.contains ·) b = .err .unexpectedEOF →
      ∃ r is, parseMulti (defaultGroupedTypes.contains ·) (b ++ r) = .ok is := by
  intro h
  have hin : parseMulti (defaultGroupedTypes.contains ·) [0, 56, 0, 2, 1] = .err .unexpectedEOF :=
    multi_begun _ (t := 56) (len := 2) 0 (c := [1]) (by decide) (by decide) (by decide)
  obtain ⟨r, is, hi⟩ := h [0, 1, 0, 5, 0, 56, 0, 2, 1]
    ((multi_closed (defaultGroupedTypes.contains ·) (t := 1) (len := 5) 0 (body := [0, 56, 0, 2, 1]) (rest := []) rfl (by simp)).1
      (by decide +kernel) _ hin)
  refine (C93_hopeless_iff (defaultGroupedTypes.contains ·) [0, 1, 0, 5, 0, 56, 0, 2, 1]).2 ?_ r ⟨is, hi⟩
  exact .group 1 5 0 [0, 56, 0, 2, 1] [] rfl (by decide +kernel) (not_accepted _ hin)

/-- C93, what holds: outside groups io.ErrUnexpectedEOF means that more octets are needed, unless the last octets are a
vendor-specific header, cut before its enterprise id, that announces less than the enterprise id. -/
theorem C93_unexpected_eof_partial (hg : ∀ t, g t = false) (b : Bytes) (h : parseMulti g b = .err .unexpectedEOF) :
    (∃ r is, parseMulti g (b ++ r) = .ok is) ∨
    (∃ pre t len x, b = pre ++ (be16 t ++ be16 len ++ x) ∧ isVendor t = true ∧ len.toNat < 2 ∧ x.length < 2) := by
  by_cases hh : Hopeless g b
  · right
    induction hh with
    | vendor t len rest hv hl =>
      rw [multi_vendor g rest hv hl] at h
      split at h
      · exact ⟨[], t, len, rest, by simp, hv, hl, by assumption⟩
      · cases h
    | group t len eid body rest hl hgt hn => rw [hg t] at hgt; cases hgt
    | begun t len eid c hl hgt hc hlt hn => rw [hg t] at hgt; cases hgt
    | later t len eid body rest hl ha hr ih =>
      have hne : rest ≠ [] := by
        rintro rfl
        obtain ⟨e, he⟩ := hr.refused g
        rw [parseMulti_nil] at he; cases he
      obtain ⟨pre, t', len', x, rfl, h1, h2, h3⟩ := ih (((multi_closed g eid hl (by simp [hne])).2 ha _).1 h)
      exact ⟨encHdr t len eid ++ body ++ pre, t', len', x, by simp, h1, h2, h3⟩
  · left
    obtain ⟨r, hr⟩ := completed g b.length b (Nat.le_refl _) hh
    obtain ⟨is, hi⟩ := accepted_parse hr
    exact ⟨r, is, hi⟩

example : parseMulti (fun _ => false) [0, 56, 0, 2, 1] = .err .unexpectedEOF ∧
    ∃ r is, parseMulti (fun _ => false) ([0, 56, 0, 2, 1] ++ r) = .ok is :=
  ⟨multi_begun _ (t := 56) (len := 2) 0 (c := [1]) (by decide) (by decide) (by decide), [7],
    accepted_parse (.cons 56 2 0 [1, 7] [] rfl (fun h => by cases h) .nil)⟩

namespace Msg

/-- Octets behind an accepted header are taken into its payload. -/
theorem header_more {b : Bytes} {h : Header} (hp : Header.parse b = .ok h) (r : Bytes) :
    Header.parse (b ++ r) = .ok { h with payload := h.payload ++ r } := by
  obtain ⟨he, hw⟩ := Header.parse_sound b h hp
  have : ({ h with payload := h.payload ++ r } : Header).enc = b ++ r := by
    rw [← he]; simp [Header.enc]
  rw [← this]
  exact Header.parse_enc _ hw

/-- C93, exactly, for datagrams of all kinds: no continuation is accepted if and only if the header is complete and no
continuation of what follows is a sequence of elements. -/
theorem C93_datagram_iff (b : Bytes) : (∀ r, ¬ ∃ m, parse g (b ++ r) = .ok m) ↔
    ∃ h, Header.parse b = .ok h ∧ Hopeless g h.payload := by
  constructor
  · intro hno
    by_cases hp : ∃ h, Header.parse b = .ok h
    · obtain ⟨h, hp⟩ := hp
      refine ⟨h, hp, (C93_hopeless_iff g h.payload).1 ?_⟩
      rintro r ⟨is, hi⟩
      refine hno r ?_
      rw [parse_normal, header_more hp r, Res.ok_bind]
      by_cases h2 : (h.payload ++ r).length < 2
      · exact ⟨_, by rw [if_pos h2]⟩
      · exact ⟨_, by rw [if_neg h2, hi, Res.ok_bind]⟩
    · exfalso
      have key : ∀ (f : UInt8) (rest : Bytes), b ++ rest = f :: (b ++ rest).tail → (b ++ rest).length = Header.fixedLen f →
          ∃ m, parse g (b ++ rest) = .ok m := by
        intro f rest he hl
        obtain ⟨h, hh⟩ := (Header.C15_header_accepts (b ++ rest)).2 ⟨f, _, he, Nat.le_of_eq hl.symm⟩
        have hs := (Header.parse_sound _ _ hh).1
        have hflag : h.flags = f := by
          rw [he] at hs
          simp [Header.enc] at hs
          exact hs.1
        have hlen := congrArg List.length hs
        rw [Header.enc_length, hflag, hl] at hlen
        have h0 : h.payload.length = 0 := by omega
        exact ⟨_, by rw [parse_normal, hh, Res.ok_bind, if_pos (by omega)]⟩
      match b with
      | [] => exact hno _ (key 0 (List.replicate 8 0) rfl rfl)
      | f :: tl =>
        have hlt : ¬ Header.fixedLen f ≤ (f :: tl).length := fun hle =>
          hp ((Header.C15_header_accepts (f :: tl)).2 ⟨f, tl, rfl, hle⟩)
        refine hno _ (key f (List.replicate (Header.fixedLen f - (f :: tl).length) 0) rfl ?_)
        rw [List.length_append, List.length_replicate]
        omega
  · rintro ⟨h, hp, hh⟩ r ⟨m, hm⟩
    obtain ⟨e, he⟩ := (hh.more g r).refused g
    rw [parse_normal, header_more hp r, Res.ok_bind] at hm
    split at hm
    · rename_i h2
      match hq : h.payload ++ r with
      | [] => simp only [hq, parseMulti_nil] at he; cases he
      | [x] =>
        have hx := hh.more g r
        rw [hq] at hx
        generalize hy : [x] = y at hx
        have hy1 : y.length = 1 := by rw [← hy]; rfl
        cases hx with
        | vendor t len rest => simp at hy1; omega
        | group t len eid body rest => have := hdrLen_pos t; simp at hy1; omega
        | begun t len eid c => have := hdrLen_pos t; simp at hy1; omega
        | later t len eid body rest => have := hdrLen_pos t; simp at hy1; omega
      | _ :: _ :: _ => simp only [hq] at h2; simp at h2; omega
    · simp only [he, Res.err_bind] at hm
      cases hm

/-- C93 (b) for datagrams: ErrInvalidLength is final. -/
theorem C93_datagram_invalid_length (b : Bytes) (hb : parse g b = .err .invalidLength) (r : Bytes) :
    parse g (b ++ r) = .err .invalidLength := by
  rw [parse_normal, Res.bind_eq_err] at hb
  rcases hb with hb | ⟨h, hp, hb⟩
  · exfalso
    rw [Header.parse_eq] at hb
    repeat' split at hb
    all_goals cases hb
  · rw [parse_normal, header_more hp r, Res.ok_bind]
    split at hb
    · cases hb
    · rename_i h2
      rw [if_neg (by simp only [List.length_append]; omega)]
      rw [Res.bind_eq_err] at hb
      rcases hb with hb | ⟨_, _, hb⟩
      · simp only [C93_invalid_length g _ hb r, Res.err_bind]
      · cases hb

example : parse (defaultGroupedTypes.contains ·) ([0x20, 1, 0, 10, 0, 0, 1, 0] ++ [0x80, 1, 0, 1, 0, 7]) = .err .invalidLength := by
  decide +kernel

end Msg

end Pfcp
