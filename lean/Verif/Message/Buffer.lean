/- `MarshalTo` of headers and messages into every buffer. Property theorems are in `Verif/Message/BufferProps.lean`. -/
import Verif.Message.Lemmas
import Verif.Fields.Buffer

namespace Pfcp

namespace Slice

/-- The step panics, or leaves a buffer of the same length and capacity. -/
def Keeps (b : Slice) (x : Res Slice) : Prop :=
  x = .panic ∨ ∃ c, x = .ok c ∧ c.data.length = b.data.length ∧ c.spare.length = b.spare.length

theorem keeps_set (b : Slice) (i : Nat) (v : UInt8) : Keeps b (b.set i v) := by
  unfold set
  split
  · exact .inr ⟨_, rfl, by simp, rfl⟩
  · exact .inl rfl

theorem overwrite_lengths (s : Slice) (o : Nat) (bs : Bytes) (h : o + bs.length ≤ s.cap) :
    (s.overwrite o bs).data.length = s.data.length ∧ (s.overwrite o bs).spare.length = s.spare.length := by
  have h1 := W.overwrite_dataLen s o bs h
  have h2 := W.overwrite_cap s o bs h
  unfold cap at h2
  omega

theorem keeps_putAt (b : Slice) (lo hi : Nat) (bs : Bytes) : Keeps b (b.putAt lo hi bs) := by
  unfold putAt
  split
  · rename_i h
    exact .inr ⟨_, rfl, overwrite_lengths b lo bs (by omega)⟩
  · exact .inl rfl

theorem keeps_copyAt (b : Slice) (lo hi : Nat) (bs : Bytes) : Keeps b (b.copyAt lo hi bs) := by
  unfold copyAt
  split
  · rename_i h
    exact .inr ⟨_, rfl, overwrite_lengths b lo _ (by rw [List.length_take]; omega)⟩
  · exact .inl rfl

/-- A program that panics from every buffer of this size does so after a step. -/
theorem Keeps.then_panics {α : Type} {b : Slice} {x : Res Slice} {f : Slice → Res α} (h : Keeps b x)
    (hf : ∀ c : Slice, c.data.length = b.data.length → c.spare.length = b.spare.length → f c = .panic) :
    (x >>= f) = .panic := by
  rcases h with h | ⟨c, hc, h1, h2⟩
  · rw [h]; rfl
  · rw [hc]; exact hf c h1 h2

/-- `set` writes one octet of the backing array. -/
theorem set_eq_overwrite (b : Slice) (i : Nat) (v : UInt8) (h : i < b.data.length) :
    b.set i v = .ok (b.overwrite i [v]) := by
  rw [Slice.set_inside b i v h, W.overwrite_lays b.data b.spare [v] i (by simp; omega)]
  rfl

end Slice

namespace Header

/-- Too short for the fixed part: the index expression of the priority octet panics, if nothing before it does. -/
theorem marshalTo_short (h : Header) (b : Slice) (hb : b.data.length < fixedLen h.flags) :
    h.marshalTo b = .panic := by
  unfold marshalTo
  refine (Slice.keeps_set b _ _).then_panics fun b1 l1 s1 => ?_
  refine (Slice.keeps_set b1 _ _).then_panics fun b2 l2 s2 => ?_
  refine (Slice.keeps_putAt b2 _ _ _).then_panics fun b3 l3 s3 => ?_
  unfold fixedLen at hb
  unfold hasSEID
  by_cases hs : has1stBit h.flags = true
  · rw [if_pos hs] at hb ⊢
    rw [bind_assoc]
    refine (Slice.keeps_putAt b3 _ _ _).then_panics fun b4 l4 s4 => ?_
    simp only [Res.pure_eq, Res.ok_bind]
    refine (Slice.keeps_copyAt b4 _ _ _).then_panics fun b5 l5 s5 => ?_
    unfold Slice.set
    rw [if_neg (by omega)]
    rfl
  · rw [if_neg hs] at hb ⊢
    simp only [Res.pure_eq, Res.ok_bind]
    refine (Slice.keeps_copyAt b3 _ _ _).then_panics fun b5 l5 s5 => ?_
    unfold Slice.set
    rw [if_neg (by omega)]
    rfl

/-- The fixed part, written into a buffer that holds it. -/
def fixedPart (h : Header) : Bytes :=
  [h.flags, h.typ] ++ be16 h.length ++ (if has1stBit h.flags then be64 h.seid else []) ++
    beBytes 3 h.seq.toNat ++ [h.pri]

theorem fixedPart_length (h : Header) : h.fixedPart.length = fixedLen h.flags := by
  unfold fixedPart fixedLen; split <;> simp

theorem marshalTo_long (h : Header) (b : Slice) (hb : fixedLen h.flags ≤ b.data.length) :
    h.marshalTo b
      = (b.overwrite 0 h.fixedPart).copyAt (fixedLen h.flags) h.marshalLen h.payload := by
  obtain ⟨d, sp⟩ := b
  simp only at hb
  unfold marshalTo
  have h8 : 8 ≤ fixedLen h.flags := by unfold fixedLen; split <;> omega
  have hfl := fixedPart_length h
  rw [W.overwrite_lays d sp h.fixedPart 0 (by omega), List.take_zero, List.nil_append, Nat.zero_add]
  rw [show (⟨d, sp⟩ : Slice) = ⟨[] ++ d, sp⟩ from rfl, Slice.set_next [] d sp h.flags 0 rfl (by omega)]
  simp only [Res.ok_bind]
  rw [Slice.set_next _ _ _ _ 1 rfl (by simp; omega)]
  simp only [Res.ok_bind]
  rw [Slice.putAt_next _ _ _ _ 2 4 rfl (by simp) (by simp; omega)]
  simp only [Res.ok_bind]
  by_cases hs : h.hasSEID = true
  · have hs' : has1stBit h.flags = true := hs
    have hf : fixedLen h.flags = 16 := by simp [fixedLen, hs']
    rw [if_pos hs]
    rw [Slice.putAt_next _ _ _ _ 4 (4 + 8) (by simp) (by simp) (by simp; omega)]
    simp only [Res.ok_bind, Res.pure_eq]
    rw [Slice.copyAt_next _ _ _ _ (4 + 8) (4 + 8 + 3) (by simp) (by simp) (by simp; omega)]
    simp only [Res.ok_bind]
    rw [Slice.set_next _ _ _ _ _ (by simp) (by simp; omega)]
    simp only [Res.ok_bind]
    rw [hf]
    congr 1
    simp [fixedPart, hs', uint32To24_eq, List.drop_drop]
  · have hs' : has1stBit h.flags = false := by simpa [hasSEID] using hs
    have hf : fixedLen h.flags = 8 := by simp [fixedLen, hs']
    rw [if_neg hs]
    simp only [Res.ok_bind, Res.pure_eq]
    rw [Slice.copyAt_next _ _ _ _ 4 (4 + 3) (by simp) (by simp) (by simp; omega)]
    simp only [Res.ok_bind]
    rw [Slice.set_next _ _ _ _ _ (by simp) (by simp; omega)]
    simp only [Res.ok_bind]
    rw [hf]
    congr 1
    simp [fixedPart, hs', uint32To24_eq, List.drop_drop]

/-- `Header.MarshalTo` on every buffer. -/
theorem marshalTo_total (h : Header) (b : Slice) :
    h.marshalTo b = if b.data.length < fixedLen h.flags ∨ b.cap < h.enc.length then .panic
      else .ok (b.overwrite 0 h.enc) := by
  by_cases h1 : b.data.length < fixedLen h.flags
  · rw [if_pos (.inl h1), marshalTo_short h b h1]
  rw [marshalTo_long h b (by omega)]
  have hfl := fixedPart_length h
  have hcap : fixedLen h.flags ≤ b.cap := by unfold Slice.cap; omega
  have hc := W.overwrite_cap b 0 h.fixedPart (by omega)
  have hel := enc_length h
  unfold Slice.copyAt
  rw [hc, marshalLen_eq]
  by_cases h2 : b.cap < h.enc.length
  · rw [if_neg (by omega), if_pos (.inr h2)]
  · rw [if_pos (by omega), if_neg (by omega), List.take_of_length_le (by omega)]
    have := W.overwrite_overwrite b 0 h.fixedPart h.payload (by rw [List.length_append]; omega)
    rw [Nat.zero_add, hfl] at this
    rw [this]
    rfl

end Header

namespace Msg

variable (g : IEType → Bool)

/-- `MarshalTo` of a message on every buffer. -/
theorem marshalTo_total (m : Msg) (hs : m.Shaped) (hn : m.NoNil) (b : Slice) :
    marshalTo g m b
      = if b.data.length < Header.fixedLen m.header.flags ∨ b.cap < (m.wire g).length then .panic
        else .ok ({ m with header := m.wireHeader g }, b.overwrite 0 (m.wire g)) := by
  have hbig := marshalTo_ok g m hs hn (Slice.make (m.wire g).length) (by simp [Slice.make])
  have key : ∀ b c : Slice, ∀ r : Msg × Slice, marshalTo g m c = .ok r →
      marshalTo g m b = ((r.1.header).marshalTo b >>= fun b => pure (r.1, b)) := by
    intro b c r hr
    unfold marshalTo at hr ⊢
    simp only at hr ⊢
    obtain ⟨n, e1, hr⟩ := Res.bind_eq_ok.1 hr
    obtain ⟨p, e2, hr⟩ := Res.bind_eq_ok.1 hr
    obtain ⟨q, e3, hr⟩ := Res.bind_eq_ok.1 hr
    obtain ⟨b', e4, hr⟩ := Res.bind_eq_ok.1 hr
    rw [e1, Res.ok_bind, e2, Res.ok_bind, e3, Res.ok_bind]
    simp only [Res.pure_eq, Res.ok.injEq] at hr
    subst hr
    rfl
  rw [key b _ _ hbig]
  simp only
  rw [Header.marshalTo_total]
  show (if b.data.length < Header.fixedLen m.header.flags ∨ b.cap < (m.wire g).length then _ else _) >>= _ = _
  split
  · rfl
  · rfl

end Msg
end Pfcp
