/- Property theorem C53 for RemoteGTPUPeer, exactly, unless the spare fifth bit is set with an address or the destination
interface is announced as empty; and most of those cases. -/
import Verif.Fields.Lossless

namespace Pfcp
namespace Fields
namespace RemoteGTPUPeer

/-- A destination interface that is not empty: only its first octet is kept. -/
theorem takes_wide (k : Nat) : P.Takes k parseDI 0 (fun r w => r.1 ≠ 0 →
    ∃ x : Bytes, w = be16 r.1 ++ (r.2 :: x) ∧ x.length + 1 = r.1.toNat) := by
  intro d sp o x o' ho h
  obtain ⟨n, o1, h1, h⟩ := P.bind_inv h
  obtain ⟨w, post, e, rfl, rfl, _⟩ := P.Takes.f16 (k := k) d sp o n o1 ho h1
  obtain ⟨_, o2, h2, h⟩ := P.bind_inv h
  obtain ⟨hl, rfl⟩ := P.need_inv h2
  obtain ⟨y, o3, h3, h⟩ := P.bind_inv h
  unfold P.peek at h3
  cases hx : Slice.idx ⟨d, sp⟩ (o + (be16 n).length + 0) with
  | panic => rw [hx] at h3; cases h3
  | err e => rw [hx] at h3; cases h3
  | ok z =>
    rw [hx] at h3; cases h3
    cases h
    simp only [be16_length, Nat.add_zero] at hx hl ⊢
    have hlen : d.length - o = 2 + post.length := by
      rw [← List.length_drop, e, List.length_append, be16_length]
    refine ⟨be16 n ++ post.take n.toNat, post.drop n.toNat, ?_, ?_, ?_, ?_⟩
    · rw [e, List.append_assoc, List.take_append_drop]
    · rw [List.length_append, List.length_take, be16_length]
      omega
    · intro hn
      have hn' : n.toNat ≠ 0 := fun h0 => hn (UInt16.toNat_inj.1 h0)
      have e2 : d.drop (o + 2) = post := by
        rw [← List.drop_drop, e]; rfl
      have e3 : d[o + 2]? = some y := by
        unfold Slice.idx at hx
        simp only at hx
        cases hq : d[o + 2]? with
        | none => rw [hq] at hx; cases hx
        | some q => rw [hq] at hx; cases hx; rfl
      obtain ⟨hlt, hy⟩ := List.getElem?_eq_some_iff.1 e3
      have e4 : post = y :: d.drop (o + 2 + 1) := by rw [← e2, List.drop_eq_getElem_cons hlt, hy]
      refine ⟨(d.drop (o + 2 + 1)).take (n.toNat - 1), ?_, ?_⟩
      · show be16 n ++ List.take n.toNat post = _
        rw [e4]
        obtain ⟨m, hm⟩ : ∃ m, n.toNat = m + 1 := ⟨n.toNat - 1, by omega⟩
        rw [hm]
        rfl
      · have := congrArg List.length e4
        simp only [List.length_cons, List.length_drop] at this
        simp only [List.length_take, List.length_drop]
        omega
    · omega

/-- The payload with `x` behind the first octet of the destination interface. -/
def wide (v : RemoteGTPUPeer) (x : Bytes) : Bytes :=
  [v.flags] ++ (v.v4.val ++ (v.v6.val ++ ((if bit v.flags 2 then be16 v.diLength ++ (v.di :: x) else []) ++
    (if bit v.flags 3 then be16 v.niLength ++ v.ni else []))))

/-- What is known of an accepted value. -/
def Sized (v : RemoteGTPUPeer) : Prop :=
  ((bit v.flags 1 = v.v4.isSome ∧ v.v4.Len 4) ∧ (bit v.flags 0 = v.v6.isSome ∧ v.v6.Len 16)) ∧
  (bit v.flags 3 = true → v.ni.length = v.niLength.toNat)

theorem takes_all (s : Slice) (v : RemoteGTPUPeer) (h : codec.parse s = .ok v)
    (hd : bit v.flags 2 = true → v.diLength ≠ 0) :
    ∃ x post, s.data = wide v x ++ post ∧ (bit v.flags 2 = true → x.length + 1 = v.diLength.toNat) ∧ Sized v := by
  have t1 : ∀ c, P.Takes 0 (P.opt c parseDI (0, 0)) 0 (fun r w => (c = true → r.1 ≠ 0) →
      ∃ x : Bytes, (w = if c then be16 r.1 ++ (r.2 :: x) else []) ∧ (c = true → x.length + 1 = r.1.toNat)) := by
    intro c
    cases c
    · refine P.Takes.weaken (P.Takes.pure ((0, 0) : UInt16 × UInt8)) ?_
      rintro x w ⟨rfl, rfl⟩ _
      exact ⟨[], rfl, fun h => by cases h⟩
    · refine P.Takes.weaken (takes_wide 0) ?_
      intro r w hx h1
      obtain ⟨x, e1, e2⟩ := hx (h1 rfl)
      exact ⟨x, e1, fun _ => e2⟩
  have t2 : ∀ c, P.Takes 0 (P.opt c parseNI (0, [])) 0 (fun x w => (w = if c then be16 x.1 ++ x.2 else []) ∧
      (c = true → x.2.length = x.1.toNat)) := by
    intro c
    cases c
    · refine P.Takes.weaken (P.Takes.pure ((0, []) : UInt16 × Bytes)) ?_
      rintro x w ⟨rfl, rfl⟩; exact ⟨rfl, fun h => by cases h⟩
    · refine P.Takes.weaken (parseNI_takes 0) ?_
      intro x w hx
      exact ⟨hx.1, fun _ => hx.2⟩
  obtain ⟨w, post, e, hR, _⟩ := P.Takes.run' (n := 2) (m := 0) (P.Takes.bind P.Takes.u8 fun fl =>
    P.Takes.bind P.Takes.raw fun v4 => P.Takes.bind P.Takes.raw fun v6 => P.Takes.bind (t1 _) fun di =>
    P.Takes.bind (t2 _) fun ni => P.Takes.pure (⟨fl, v4, v6, di.1, di.2, ni.1, ni.2⟩ : RemoteGTPUPeer)) s v h
  obtain ⟨fl, _, _, rfl, ⟨v4, _, _, ⟨rfl, a1, a2⟩, ⟨v6, _, _, ⟨rfl, b1, b2⟩, ⟨di, _, _, hx,
    ⟨ni, _, _, ⟨rfl, hn⟩, ⟨rfl, rfl⟩, rfl⟩, rfl⟩, rfl⟩, rfl⟩, rfl⟩ := hR
  simp only [has1stBit_eq, has2ndBit_eq, has3rdBit_eq, has4thBit_eq] at *
  obtain ⟨x, rfl, hl⟩ := hx hd
  refine ⟨x, post, ?_, hl, ⟨⟨a1.symm, a2⟩, b1.symm, b2⟩, hn⟩
  rw [e]
  simp [wide]

theorem emits_wide (v : RemoteGTPUPeer) (hs : Sized v) (h5 : bit v.flags 4 = true → bit v.flags 0 = false ∧ bit v.flags 1 = false)
    (hd : bit v.flags 2 = true → v.diLength ≠ 0) (hf : ∃ i, i < 4 ∧ bit v.flags i = true) :
    codec.marshal v = .ok (wide v (List.replicate (v.diLength.toNat - 1) 0)) := by
  obtain ⟨⟨⟨h1, h2⟩, h3, h4⟩, hn⟩ := hs
  have hd' : bit v.flags 2 = true → 1 ≤ v.diLength.toNat := fun h => by
    have := hd h
    have : v.diLength.toNat ≠ 0 := fun h0 => this (UInt16.toNat_inj.1 h0)
    omega
  have c0 : (bit v.flags 0 && !bit v.flags 4) = bit v.flags 0 := by
    cases hb : bit v.flags 4 with
    | false => simp
    | true => simp [(h5 hb).1]
  have c1 : (bit v.flags 1 && !bit v.flags 4) = bit v.flags 1 := by
    cases hb : bit v.flags 4 with
    | false => simp
    | true => simp [(h5 hb).2]
  have hlen : (wide v (List.replicate (v.diLength.toNat - 1) 0)).length = v.marshalLen := by
    simp only [wide, marshalLen, List.length_append, h2.val, h4.val, ite_len, apply_ite List.length, be16_length,
      List.length_cons, List.length_nil, List.length_replicate, ← h1, ← h3, has1stBit_eq, has2ndBit_eq, has3rdBit_eq,
      has4thBit_eq, has5thBit_eq, c0, c1]
    cases hb3 : bit v.flags 2 <;> cases hb4 : bit v.flags 3 <;> simp [hn, hb4] <;>
      first | omega | (have := hd' hb3; omega)
  have hl : 2 ≤ (wide v (List.replicate (v.diLength.toNat - 1) 0)).length := by
    rw [hlen]
    unfold marshalLen
    simp only [has1stBit_eq, has2ndBit_eq, has3rdBit_eq, has4thBit_eq, has5thBit_eq, c0, c1]
    obtain ⟨i, hi, hb⟩ := hf
    have : i = 0 ∨ i = 1 ∨ i = 2 ∨ i = 3 := by omega
    rcases this with rfl | rfl | rfl | rfl <;> simp only [hb, if_true] <;>
      (repeat' split) <;> omega
  show v.marshalW.marshal v.marshalLen = _
  rw [← hlen]
  refine W.Emits.marshal_minLen hl ?_
  simp only [has1stBit_eq, has2ndBit_eq, has3rdBit_eq, has4thBit_eq]
  refine W.Emits.seq (W.Emits.u8 _) (W.Emits.seq (W.Emits.raw h1 h2) (W.Emits.seq (W.Emits.raw h3 h4)
    (W.Emits.seq (W.Emits.optIf fun e => W.Emits.seq (W.Emits.put _) ?_)
      (W.Emits.optIf fun e => W.Emits.seq (W.Emits.put _) ?_))))
  · exact W.Emits.poke_skip v.di v.diLength.toNat (hd' e)
  · exact W.Emits.copy _ (hn e)

end RemoteGTPUPeer

/-- C53, exactly, unless the spare fifth bit is set with an address, and with no destination interface announced as empty: something must be
announced, and behind the first octet of the destination interface there must be zeros. -/
theorem C53_RemoteGTPUPeer_exact (s : Slice) (v : RemoteGTPUPeer) (h : RemoteGTPUPeer.codec.parse s = .ok v)
    (h5 : bit v.flags 4 = true → bit v.flags 0 = false ∧ bit v.flags 1 = false) (hd : bit v.flags 2 = true → v.diLength ≠ 0) :
    ∃ x post, s.data = [v.flags] ++ (v.v4.val ++ (v.v6.val ++
        ((if bit v.flags 2 then be16 v.diLength ++ (v.di :: x) else []) ++
          (if bit v.flags 3 then be16 v.niLength ++ v.ni else [])))) ++ post ∧
      (bit v.flags 2 = true → x.length + 1 = v.diLength.toNat) ∧
      ((∃ w post, RemoteGTPUPeer.codec.marshal v = .ok w ∧ s.data = w ++ post) ↔
        (∃ i, i < 4 ∧ bit v.flags i = true) ∧ (bit v.flags 2 = true → ∀ y ∈ x, y = 0)) := by
  obtain ⟨x, post, e, hl, hs⟩ := RemoteGTPUPeer.takes_all s v h hd
  refine ⟨x, post, e, hl, ?_⟩
  constructor
  · rintro ⟨w, q, hw, e0⟩
    have hf : ∃ i, i < 4 ∧ bit v.flags i = true := by
      apply Classical.byContradiction
      intro hn
      have no : ∀ i, i < 4 → bit v.flags i = false := fun i hi => by
        cases hb : bit v.flags i with
        | false => rfl
        | true => exact absurd ⟨i, hi, hb⟩ hn
      have he := C43_RemoteGTPUPeer_exact v
      rw [hw, if_pos ⟨no 2 (by decide), no 3 (by decide), Or.inr ⟨no 0 (by decide), no 1 (by decide)⟩⟩] at he
      cases he
    refine ⟨hf, fun h2 => ?_⟩
    rw [RemoteGTPUPeer.emits_wide v hs h5 hd hf] at hw
    cases hw
    rw [e] at e0
    unfold RemoteGTPUPeer.wide at e0
    simp only [h2, if_true, List.append_assoc, List.cons_append, List.nil_append] at e0
    have e1 := (List.cons.inj e0).2
    have e2 := List.append_cancel_left (List.append_cancel_left (List.append_cancel_left e1))
    have e3 := (List.cons.inj e2).2
    have e4 := (List.append_inj e3 (by have := hl h2; simp; omega)).1
    intro y hy
    rw [e4] at hy
    exact (List.mem_replicate.1 hy).2
  · rintro ⟨hf, hz⟩
    refine ⟨_, post, RemoteGTPUPeer.emits_wide v hs h5 hd hf, ?_⟩
    rw [e]
    congr 1
    unfold RemoteGTPUPeer.wide
    cases h2 : bit v.flags 2 with
    | false => rfl
    | true =>
      have hx : x = List.replicate (v.diLength.toNat - 1) 0 := by
        rw [List.eq_replicate_iff]
        exact ⟨by have := hl h2; omega, hz h2⟩
      rw [← hx]

/-- C53. Nothing comes back, because nothing is encoded, if the payload ends with an empty destination interface; nor if
the spare fifth bit is set with an address, and there is a network instance or no destination interface. -/
theorem C53_RemoteGTPUPeer_lost (v : RemoteGTPUPeer)
    (h : (bit v.flags 2 = true ∧ v.diLength = 0 ∧ bit v.flags 3 = false) ∨
      (bit v.flags 4 = true ∧ (bit v.flags 0 = true ∨ bit v.flags 1 = true) ∧
        (bit v.flags 3 = true ∨ bit v.flags 2 = false))) :
    ¬ ∃ w, RemoteGTPUPeer.codec.marshal v = .ok w := by
  rintro ⟨w, hw⟩
  have he := C43_RemoteGTPUPeer_exact v
  rw [hw] at he
  rcases h with ⟨h2, h0, h3⟩ | ⟨h4, h01, h32⟩
  · rw [if_neg (by simp [h2]), if_pos (Or.inr ⟨h3, h2, by rw [h0]; exact Nat.zero_le _⟩)] at he
    cases he
  · cases h3 : bit v.flags 3 with
    | true =>
      rw [if_neg (by simp [h3]), if_pos (Or.inl ⟨h3, h4, h01⟩)] at he
      cases he
    | false =>
      have h2 : bit v.flags 2 = false := by
        rcases h32 with h | h
        · rw [h3] at h; cases h
        · exact h
      rw [if_pos ⟨h2, h3, Or.inl h4⟩] at he
      cases he

example : RemoteGTPUPeer.codec.parse ⟨[0x12, 1, 2, 3, 4], []⟩ = .ok ⟨0x12, some [1, 2, 3, 4], none, 0, 0, 0, []⟩ ∧
    bit 0x12 4 = true ∧ bit 0x12 1 = true ∧ bit 0x12 2 = false := by decide
example : RemoteGTPUPeer.codec.parse ⟨[4, 0, 2, 7, 0], []⟩ = .ok ⟨4, none, none, 2, 7, 0, []⟩ ∧
    bit 4 4 = false ∧ (2 : UInt16) ≠ 0 := by decide

end Fields
end Pfcp
