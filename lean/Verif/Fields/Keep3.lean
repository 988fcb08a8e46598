/- Property C80, continued: filters and remote GTP-U peers. -/
import Verif.Fields.Keep2
import Verif.Fields.Misc5

namespace Pfcp

theorem P.bind_assoc' {α β γ : Type} (p : P α) (f : α → P β) (g : β → P γ) :
    ((p >>= f) >>= g) = (p >>= fun a => f a >>= g) := by
  funext s o
  show P.bind (P.bind p f) g s o = P.bind p (fun a => P.bind (f a) g) s o
  unfold P.bind
  cases p s o <;> rfl

namespace Fields

/-! ### SDFFilter -/

namespace SDFFilter

theorem bytes_len {d x : Bytes} {n o o' : Nat} (h : P.bytes n ⟨d, []⟩ o = .ok (x, o')) :
    x.length = n ∧ o' = o + n ∧ o' ≤ d.length := by
  unfold P.bytes at h
  cases hs : Slice.sub ⟨d, []⟩ o (o + n) with
  | panic => rw [hs] at h; cases h
  | err e => rw [hs] at h; cases h
  | ok y =>
    rw [hs] at h
    obtain ⟨h1, h2, h3⟩ := PFDContents.sub_inv hs
    cases h
    rw [h3, List.length_drop, List.length_take]
    omega

theorem u16_off {d : Bytes} {n : UInt16} {o o' : Nat} (h : P.u16 ⟨d, []⟩ o = .ok (n, o')) : o' = o + 2 ∧ o' ≤ d.length := by
  unfold P.u16 at h
  obtain ⟨x, o1, h1, h⟩ := P.bind_inv h
  cases h
  obtain ⟨_, rfl, h2⟩ := bytes_len h1
  exact ⟨rfl, h2⟩

theorem parseN_len {d x : Bytes} {c : Bool} {n o o' : Nat} (h : P.opt c (parseN n) [] ⟨d, []⟩ o = .ok (x, o')) :
    c = true → x.length = n := by
  rintro rfl
  obtain ⟨_, o1, _, h⟩ := P.bind_inv h
  exact (bytes_len h).1

/-- A decoder success on a slice without spare capacity gives fields of their lengths. -/
theorem sized_of_parse {d : Bytes} {v : SDFFilter} (h : codec.parse ⟨d, []⟩ = .ok v) :
    v.Sized ∧ 3 ≤ d.length ∧ (hasFD v.flags = true → 5 ≤ d.length) := by
  obtain ⟨hl, o, h⟩ := run_minLen_inv h
  obtain ⟨f, o1, h1, h⟩ := P.bind_inv h
  obtain ⟨_, rfl⟩ := P.u8_inv h1
  obtain ⟨_, _, h2, h⟩ := P.bind_inv h
  cases h2
  obtain ⟨fd, o3, h3, h⟩ := P.bind_inv h
  obtain ⟨ttc, o4, h4, h⟩ := P.bind_inv h
  obtain ⟨spi, o5, h5, h⟩ := P.bind_inv h
  obtain ⟨fl, o6, h6, h⟩ := P.bind_inv h
  obtain ⟨bid, o7, h7, h⟩ := P.bind_inv h
  cases h
  have key : hasFD f = true → fd.2.length = fd.1.toNat ∧ 5 ≤ d.length := by
    intro e
    rw [e] at h3
    obtain ⟨_, p1, q1, h3⟩ := P.bind_inv h3
    have hl' : (0 + 1 + 1) ≤ d.length := by simp only at hl; omega
    rw [left_eq 3 hl'] at q1
    obtain ⟨hq, rfl⟩ := P.need_inv q1
    obtain ⟨n, p2, q2, h3⟩ := P.bind_inv h3
    obtain ⟨x, p3, q3, h3⟩ := P.bind_inv h3
    cases h3
    exact ⟨(bytes_len q3).1, by simp only at hq; omega⟩
  exact ⟨⟨fun e => (key e).1, parseN_len h4, parseN_len h5, parseN_len h6⟩, hl, fun e => (key e).2⟩

/-- `reads` also for an empty flow description with something behind it. -/
theorem reads_all (f : SDFFilter) (h : f.Sized) (h1 : hasFD f.flags = true → 5 ≤ f.enc.length) (hl : 3 ≤ f.enc.length)
    (tail sp : Bytes) :
    codec.parse ⟨f.enc ++ tail, sp⟩ = .ok ⟨f.flags, if hasFD f.flags then f.fdLength else 0,
      if hasFD f.flags then f.fd else [], if hasTTC f.flags then f.ttc else [], if hasSPI f.flags then f.spi else [],
      if hasFL f.flags then f.fl else [], if hasBID f.flags then f.bid else 0⟩ := by
  obtain ⟨s1, s2, s3, s4⟩ := h
  refine P.Reads.run_minLen hl ?_ tail sp
  have rN : ∀ (c : Bool) (n : Nat) (x : Bytes), (c = true → x.length = n) →
      P.Reads (P.opt c (parseN n) []) (if c then x else []) (if c then x else []) := by
    intro c n x hx
    cases c
    · exact P.Reads.pure _
    · exact reads_left (by simp [hx]) (P.Reads.bytes _ (hx rfl))
  have r5 : P.Reads (P.opt (hasBID f.flags) (P.left 4 >>= fun _ => P.u32) 0)
      (if hasBID f.flags then be32 f.bid else []) (if hasBID f.flags then f.bid else 0) := by
    cases hasBID f.flags
    · exact P.Reads.pure _
    · exact reads_left (by simp [be32_length]) (P.Reads.u32 _)
  have r0 : P.Reads (P.skip 1) [0] () := by
    intro pre tail sp; rfl
  refine P.Reads.bind (P.Reads.u8 _) (P.Reads.bind r0 ?_)
  have rest : ∀ a b, P.Reads (P.opt (hasTTC f.flags) (parseN 2) [] >>= fun ttc =>
      P.opt (hasSPI f.flags) (parseN 4) [] >>= fun spi => P.opt (hasFL f.flags) (parseN 3) [] >>= fun fl =>
      P.opt (hasBID f.flags) (P.left 4 >>= fun _ => P.u32) 0 >>= fun bid =>
      (Pure.pure ⟨f.flags, a, b, ttc, spi, fl, bid⟩ : P SDFFilter)) _ _ := fun a b =>
    (P.Reads.bind (rN _ _ _ s2) (P.Reads.bind (rN _ _ _ s3) (P.Reads.bind (rN _ _ _ s4) (P.Reads.bind r5 (P.Reads.pure _)))))
  cases e : hasFD f.flags
  · exact rest 0 []
  · have hlen := h1 e
    unfold enc at hlen
    rw [e] at hlen
    simp only [if_true]
    show P.Reads (parseFD >>= _) _ _
    unfold parseFD
    rw [P.bind_assoc']
    refine reads_left ?_ ?_
    · simp only [List.length_append, List.length_cons, List.length_nil, if_true] at hlen ⊢
      omega
    · rw [P.bind_assoc', List.append_assoc]
      refine P.Reads.bind (P.Reads.u16 _) ?_
      rw [P.bind_assoc']
      exact P.Reads.bind (P.Reads.bytes _ (s1 e)) (rest _ _)

end SDFFilter

/-- C80. An announced empty flow description comes back only with another field behind it. -/
theorem C80_SDFFilter (v : SDFFilter) : SDFFilter.codec.Keeps v ↔
    (v.fd ≠ [] ∨ bit v.flags 1 = true ∨ bit v.flags 2 = true ∨ bit v.flags 3 = true ∨ bit v.flags 4 = true) ∧
    v.fd.length = v.fdLength.toNat ∧ (bit v.flags 0 = false → v.fd = []) ∧
    v.ttc.length = (if bit v.flags 1 then 2 else 0) ∧ v.spi.length = (if bit v.flags 2 then 4 else 0) ∧
    v.fl.length = (if bit v.flags 3 then 3 else 0) ∧ (bit v.flags 4 = false → v.bid = 0) := by
  rw [keeps_iff (R := v.Sized ∧ 3 ≤ v.enc.length ∧ (SDFFilter.hasFD v.flags = true → 5 ≤ v.enc.length)) (e := v.enc)
    (v' := _)]
  rotate_left
  · intro w hm hp
    obtain ⟨h, h1, h2⟩ := SDFFilter.sized_of_parse hp
    rw [SDFFilter.emits v h] at hm
    cases hm
    exact ⟨h, h1, h2⟩
  · exact fun h => ⟨SDFFilter.emits v h.1,
      fun sp => by have := SDFFilter.reads_all v h.1 h.2.2 h.2.1 [] sp; rwa [List.append_nil] at this⟩
  · obtain ⟨f, n, fd, ttc, spi, fl, bid⟩ := v
    have nil : ∀ x : Bytes, x = [] ↔ x.length = 0 := fun x => by
      cases x <;> simp
    have nz : n = 0 ↔ n.toNat = 0 := by
      constructor
      · rintro rfl; rfl
      · intro h; exact UInt16.toNat_inj.1 h
    have hfd : fd ≠ [] ↔ 0 < fd.length := List.length_pos_iff.symm
    have hfd' : fd = [] ↔ fd.length = 0 := by cases fd <;> simp
    constructor
    · rintro ⟨⟨hs, h3, h5⟩, he⟩
      rw [SDFFilter.enc_length _ hs] at h3 h5
      simp only [SDFFilter.Sized, SDFFilter.marshalLen, SDFFilter.hasFD, SDFFilter.hasTTC, SDFFilter.hasSPI,
        SDFFilter.hasFL, SDFFilter.hasBID, has1stBit_eq, has2ndBit_eq, has3rdBit_eq, has4thBit_eq, has5thBit_eq,
        SDFFilter.mk.injEq, true_and, ite_self_iff] at hs h3 h5 he ⊢
      rw [hfd, hfd']
      simp only [nil, nz] at he
      clear nil nz hfd hfd'
      revert hs h3 h5 he
      generalize fd.length = a, ttc.length = b, spi.length = c, fl.length = d, n.toNat = m
      cases bit f 0 <;> cases bit f 1 <;> cases bit f 2 <;> cases bit f 3 <;> cases bit f 4 <;>
        grind
    · rintro ⟨h0, h1, h2, h3, h4, h5, h6⟩
      have hs : SDFFilter.Sized ⟨f, n, fd, ttc, spi, fl, bid⟩ := by
        simp only [SDFFilter.Sized, SDFFilter.hasFD, SDFFilter.hasTTC, SDFFilter.hasSPI, SDFFilter.hasFL, has1stBit_eq,
          has2ndBit_eq, has3rdBit_eq, has4thBit_eq]
        simp only at h1 h3 h4 h5
        exact ⟨fun _ => h1, fun e => by rw [h3, e]; rfl, fun e => by rw [h4, e]; rfl, fun e => by rw [h5, e]; rfl⟩
      refine ⟨⟨hs, ?_⟩, ?_⟩
      · rw [SDFFilter.enc_length _ hs]
        simp only [SDFFilter.marshalLen, SDFFilter.hasFD, SDFFilter.hasTTC, SDFFilter.hasSPI, SDFFilter.hasFL,
          SDFFilter.hasBID, has1stBit_eq, has2ndBit_eq, has3rdBit_eq, has4thBit_eq, has5thBit_eq] at *
        rw [hfd] at h0
        rw [hfd'] at h2
        clear hs nil nz hfd hfd'
        revert h0 h1 h2 h3 h4 h5 h6
        generalize fd.length = a, ttc.length = b, spi.length = c, fl.length = d, n.toNat = m
        cases bit f 0 <;> cases bit f 1 <;> cases bit f 2 <;> cases bit f 3 <;> cases bit f 4 <;>
          grind
      · simp only [SDFFilter.hasFD, SDFFilter.hasTTC, SDFFilter.hasSPI, SDFFilter.hasFL, SDFFilter.hasBID, has1stBit_eq,
          has2ndBit_eq, has3rdBit_eq, has4thBit_eq, has5thBit_eq, SDFFilter.mk.injEq, true_and, ite_self_iff] at *
        rw [hfd'] at h2
        simp only [nil, nz]
        clear hs h0 nil nz hfd hfd'
        revert h1 h2 h3 h4 h5 h6
        generalize fd.length = a, ttc.length = b, spi.length = c, fl.length = d, n.toNat = m
        cases bit f 0 <;> cases bit f 1 <;> cases bit f 2 <;> cases bit f 3 <;> cases bit f 4 <;>
          grind

/-! ### Encoders keep the length of their buffer -/

/-- After success on a buffer without spare capacity, the buffer has the same length and no spare capacity. -/
def _root_.Pfcp.W.Fixed (w : W) : Prop :=
  ∀ s o s' o', s.spare = [] → w s o = .ok (s', o') → s'.data.length = s.data.length ∧ s'.spare = []

theorem W.Fixed.nop : W.Fixed W.nop := by
  intro s o s' o' hs h; cases h; exact ⟨rfl, hs⟩
theorem W.Fixed.seq {p q : W} (hp : p.Fixed) (hq : q.Fixed) : W.Fixed (p ;; q) := by
  intro s o s' o' hs h
  unfold W.seq at h
  cases h1 : p s o with
  | panic => rw [h1] at h; cases h
  | err e => rw [h1] at h; cases h
  | ok r =>
    rw [h1] at h
    obtain ⟨a, b⟩ := hp s o r.1 r.2 hs h1
    obtain ⟨c, d⟩ := hq _ _ _ _ b h
    exact ⟨c.trans a, d⟩
theorem W.Fixed.opt {c : Bool} {w : W} (h : w.Fixed) : W.Fixed (W.opt c w) := by
  cases c
  · exact W.Fixed.nop
  · exact h
theorem W.Fixed.skip (n : Nat) : W.Fixed (W.skip n) := by
  intro s o s' o' hs h; cases h; exact ⟨rfl, hs⟩
theorem set_fixed {s s' : Slice} {i : Nat} {v : UInt8} (h : s.set i v = .ok s') :
    s'.data.length = s.data.length ∧ s'.spare = s.spare := by
  unfold Slice.set at h
  split at h
  · cases h; exact ⟨List.length_set, rfl⟩
  · cases h
theorem W.Fixed.u8 (v : UInt8) : W.Fixed (W.u8 v) := by
  intro s o s' o' hs h
  unfold W.u8 at h
  cases h1 : s.set o v with
  | panic => rw [h1] at h; cases h
  | err e => rw [h1] at h; cases h
  | ok r =>
    rw [h1] at h; cases h
    exact ⟨(set_fixed h1).1, (set_fixed h1).2.trans hs⟩
theorem W.Fixed.poke (v : UInt8) : W.Fixed (W.poke v) := by
  intro s o s' o' hs h
  unfold W.poke at h
  cases h1 : s.set o v with
  | panic => rw [h1] at h; cases h
  | err e => rw [h1] at h; cases h
  | ok r =>
    rw [h1] at h; cases h
    exact ⟨(set_fixed h1).1, (set_fixed h1).2.trans hs⟩
theorem overwrite_fixed {s : Slice} {lo : Nat} {bs : Bytes} (hs : s.spare = []) (h : lo + bs.length ≤ s.data.length) :
    (s.overwrite lo bs).data.length = s.data.length ∧ (s.overwrite lo bs).spare = [] := by
  unfold Slice.overwrite
  rw [hs]
  simp
  omega
theorem W.Fixed.put (bs : Bytes) : W.Fixed (W.put bs) := by
  intro s o s' o' hs h
  unfold W.put Slice.putAt at h
  split at h
  · rename_i c
    cases h
    refine overwrite_fixed hs ?_
    have := c.2.1
    unfold Slice.cap at this
    rw [hs] at this
    simpa using this
  · cases h
theorem W.Fixed.copy (n : Nat) (bs : Bytes) : W.Fixed (W.copy n bs) := by
  intro s o s' o' hs h
  unfold W.copy Slice.copyAt at h
  split at h
  · rename_i c
    cases h
    refine overwrite_fixed hs ?_
    have := c.2
    unfold Slice.cap at this
    rw [hs] at this
    simp only [List.length_nil, Nat.add_zero] at this
    rw [List.length_take]
    omega
  · cases h
theorem W.Fixed.minLen (n : Nat) : W.Fixed (W.minLen n) := by
  intro s o s' o' hs h
  unfold W.minLen at h
  split at h
  · cases h
  · cases h; exact ⟨rfl, hs⟩
/-- The result of `Marshal` has the length that `MarshalLen` told. -/
theorem W.Fixed.marshal {w : W} (hw : w.Fixed) {n : Nat} {x : Bytes} (h : w.marshal n = .ok x) : x.length = n := by
  unfold W.marshal W.run at h
  cases h1 : w (Slice.make n) 0 with
  | panic => rw [h1] at h; cases h
  | err e => rw [h1] at h; cases h
  | ok r =>
    rw [h1] at h; cases h
    have := (hw _ _ r.1 r.2 rfl h1).1
    rw [this]
    exact List.length_replicate

/-! ### RemoteGTPUPeer -/

namespace RemoteGTPUPeer

theorem marshal_length {f : RemoteGTPUPeer} {w : Bytes} (h : codec.marshal f = .ok w) : w.length = f.marshalLen :=
  W.Fixed.marshal (W.Fixed.seq (W.Fixed.minLen 2) (W.Fixed.seq (W.Fixed.u8 _) (W.Fixed.seq (W.Fixed.opt (W.Fixed.copy _ _))
    (W.Fixed.seq (W.Fixed.opt (W.Fixed.copy _ _)) (W.Fixed.seq (W.Fixed.opt (W.Fixed.seq (W.Fixed.put _)
      (W.Fixed.seq (W.Fixed.poke _) (W.Fixed.skip _)))) (W.Fixed.opt (W.Fixed.seq (W.Fixed.put _) (W.Fixed.copy _ _)))))))) h

/-- The destination interface octets: one with the value, then zeros, or none at all. -/
def diWire (f : RemoteGTPUPeer) : Bytes :=
  be16 f.diLength ++ (if f.diLength = 0 then [] else f.di :: List.replicate (f.diLength.toNat - 1) 0)

/-- What the encoder writes for values that it can write. -/
def wireAll (f : RemoteGTPUPeer) : Bytes :=
  [f.flags] ++ (f.v4.val ++ (f.v6.val ++ ((if has3rdBit f.flags then f.diWire else []) ++
    ((if has4thBit f.flags then be16 f.niLength ++ f.ni else []) ++ []))))

/-- Such values. -/
def Fits (f : RemoteGTPUPeer) : Prop :=
  (has5thBit f.flags = true → has1stBit f.flags = false ∧ has2ndBit f.flags = false) ∧
  ((has2ndBit f.flags = f.v4.isSome ∧ f.v4.Len 4) ∧ (has1stBit f.flags = f.v6.isSome ∧ f.v6.Len 16)) ∧
  (has3rdBit f.flags = true → f.diLength = 0 → has4thBit f.flags = true) ∧
  (has4thBit f.flags = true → f.ni.length = f.niLength.toNat)

theorem diWire_length (f : RemoteGTPUPeer) : f.diWire.length = 2 + f.diLength.toNat := by
  unfold diWire
  rw [List.length_append, be16_length]
  split
  · rename_i h; rw [h]; rfl
  · rename_i h
    have : f.diLength.toNat ≠ 0 := fun e => h (UInt16.toNat_inj.1 e)
    simp only [List.length_cons, List.length_replicate]
    omega

theorem wireAll_length (f : RemoteGTPUPeer) (h : f.Fits) : f.wireAll.length = f.marshalLen := by
  obtain ⟨h5, ⟨⟨h1, h2⟩, h3, h4⟩, _, hn⟩ := h
  simp only [wireAll, marshalLen, List.length_append, h2.val, h4.val, ite_len, apply_ite List.length, be16_length,
    diWire_length, List.length_cons, List.length_nil, ← h1, ← h3]
  revert h5 hn
  generalize f.ni.length = a, f.niLength.toNat = b, f.diLength.toNat = c
  cases has5thBit f.flags <;> cases has1stBit f.flags <;> cases has2ndBit f.flags <;> cases has3rdBit f.flags <;>
    cases has4thBit f.flags <;> grind

/-- An octet written where other octets are written next does not matter. -/
theorem emits_poke_put (v : UInt8) (bs : Bytes) (hb : bs ≠ []) : W.Emits ((W.poke v ;; W.skip 0) ;; W.put bs) bs := by
  intro pre n hn
  have hb' : 0 < bs.length := List.length_pos_iff.2 hb
  have key : W.put bs ⟨(pre ++ List.replicate n 0).set pre.length v, []⟩ pre.length
      = W.put bs ⟨pre ++ List.replicate n 0, []⟩ pre.length := by
    unfold W.put Slice.putAt Slice.overwrite Slice.cap
    simp only [List.length_set, List.append_nil]
    rw [List.take_set_of_le (Nat.le_refl _), List.drop_set_of_lt (by omega)]
  have := W.Emits.put bs pre n hn
  rw [← this, ← key]
  unfold W.seq W.poke W.skip Slice.set
  rw [if_pos (by simp; omega)]
  rfl

theorem seq_assoc (p q r : W) : ((p ;; q) ;; r) = (p ;; (q ;; r)) := by
  funext s o
  unfold W.seq
  cases p s o <;> rfl

theorem emits_all (f : RemoteGTPUPeer) (h : f.Fits) (hl : 2 ≤ f.wireAll.length) : codec.marshal f = .ok f.wireAll := by
  show f.marshalW.marshal f.marshalLen = _
  rw [← wireAll_length f h]
  obtain ⟨h5, ⟨⟨h1, h2⟩, h3, h4⟩, hd, hn⟩ := h
  refine W.Emits.marshal_minLen hl ?_
  refine W.Emits.seq (W.Emits.u8 _) (W.Emits.seq (W.Emits.raw h1 h2) (W.Emits.seq (W.Emits.raw h3 h4) ?_))
  cases e3 : has3rdBit f.flags
  · exact W.Emits.seq W.Emits.nop (W.Emits.tail (W.Emits.optIf fun e => W.Emits.seq (W.Emits.put _) (W.Emits.copy _ (hn e))))
  · by_cases e0 : f.diLength = 0
    · have e4 := hd e3 e0
      rw [e4]
      simp only [if_true, diWire]
      rw [e0]
      simp only [if_true, List.append_nil]
      show W.Emits ((W.put (be16 0) ;; W.poke f.di ;; W.skip 0) ;; (W.put (be16 f.niLength) ;; W.copy f.niLength.toNat f.ni)) _
      rw [seq_assoc, ← seq_assoc (W.poke f.di ;; W.skip 0)]
      exact W.Emits.seq (W.Emits.put _) (W.Emits.seq (emits_poke_put _ _ (by
        intro hc; have := congrArg List.length hc; rw [be16_length] at this; cases this)) (W.Emits.copy _ (hn e4)))
    · have hz : f.diLength.toNat ≠ 0 := fun e => e0 (UInt16.toNat_inj.1 e)
      simp only [if_true, diWire, if_neg e0]
      exact W.Emits.seq (W.Emits.seq (W.Emits.put _) (W.Emits.poke_skip f.di _ (by omega)))
        (W.Emits.tail (W.Emits.optIf fun e => W.Emits.seq (W.Emits.put _) (W.Emits.copy _ (hn e))))

/-- The octet returned as destination interface is the one behind the length, whatever it belongs to. -/
theorem parseDI_at (pre rest sp : Bytes) (n : UInt16) (x : UInt8) (hn : n.toNat ≤ (x :: rest).length) :
    parseDI ⟨pre ++ be16 n ++ (x :: rest), sp⟩ pre.length = .ok ((n, x), pre.length + 2 + n.toNat) := by
  have h1 := P.Reads.f16 n pre (x :: rest) sp
  have hb : ∀ s o, parseDI s o = P.bind P.f16 (fun n => P.bind (P.need n.toNat) fun _ => P.bind (P.peek 0) fun di =>
      P.bind (P.skip n.toNat) fun _ => P.pure (n, di)) s o := fun _ _ => rfl
  rw [hb]
  unfold P.bind
  rw [h1]
  simp only [be16_length]
  unfold P.need P.peek P.skip Slice.idx
  have e2 : (pre ++ be16 n ++ (x :: rest))[pre.length + 2]? = some x := by
    rw [List.getElem?_append_right (by simp)]
    simp
  simp only [List.length_append, be16_length, Nat.add_zero]
  rw [if_neg (by omega)]
  simp only [e2]
  rfl

theorem reads_all (f : RemoteGTPUPeer) (h : f.Fits) (hl : 2 ≤ f.wireAll.length) (tail sp : Bytes) :
    codec.parse ⟨f.wireAll ++ tail, sp⟩ = .ok ⟨f.flags, f.v4, f.v6, if has3rdBit f.flags then f.diLength else 0,
      if has3rdBit f.flags then (if f.diLength = 0 then UInt8.ofNat (f.niLength.toNat / 256) else f.di) else 0,
      if has4thBit f.flags then f.niLength else 0, if has4thBit f.flags then f.ni else []⟩ := by
  obtain ⟨h5, ⟨⟨h1, h2⟩, h3, h4⟩, hd, hn⟩ := h
  refine P.Reads.run_minLen hl ?_ tail sp
  have r2 : P.Reads (P.opt (has4thBit f.flags) parseNI (0, []))
      (if has4thBit f.flags then be16 f.niLength ++ f.ni else [])
      (if has4thBit f.flags then f.niLength else 0, if has4thBit f.flags then f.ni else []) := by
    cases hb : has4thBit f.flags
    · exact P.Reads.pure _
    · exact P.Reads.bind (P.Reads.f16 _) (P.Reads.map (fun x => (f.niLength, x)) (P.Reads.field _ (hn hb)))
  refine P.Reads.bind (P.Reads.u8 _) (P.Reads.bind (P.Reads.raw h1 h2) (P.Reads.bind (P.Reads.raw h3 h4) ?_))
  cases e3 : has3rdBit f.flags
  · exact P.Reads.bind (P.Reads.pure _) (P.Reads.bind r2 (P.Reads.pure _))
  · simp only [if_true]
    by_cases e0 : f.diLength = 0
    · have e4 := hd e3 e0
      rw [e4] at r2 ⊢
      simp only [if_true, diWire] at r2 ⊢
      rw [e0]
      simp only [if_true, List.append_nil]
      intro pre post sp
      have hz : (0 : UInt16).toNat = 0 := rfl
      have hx : be16 f.niLength = UInt8.ofNat (f.niLength.toNat / 256) :: [UInt8.ofNat f.niLength.toNat] := by
        show [UInt8.ofNat (f.niLength.toNat / 256 ^ 1), UInt8.ofNat (f.niLength.toNat / 256 ^ 0)] = _
        rw [Nat.pow_one, Nat.pow_zero, Nat.div_one]
      have := parseDI_at pre (UInt8.ofNat f.niLength.toNat :: (f.ni ++ post)) sp 0 (UInt8.ofNat (f.niLength.toNat / 256)) (by rw [hz]; exact Nat.zero_le _)
      rw [show pre ++ (be16 0 ++ (be16 f.niLength ++ f.ni)) ++ post
        = pre ++ be16 0 ++ (UInt8.ofNat (f.niLength.toNat / 256) :: (UInt8.ofNat f.niLength.toNat :: (f.ni ++ post))) by
          rw [hx]; simp]
      rw [P.bind_ok (show P.opt true parseDI (0, 0) _ _ = _ from this)]
      have r := P.Reads.bind (f := fun ni => (Pure.pure ⟨f.flags, f.v4, f.v6, 0, UInt8.ofNat (f.niLength.toNat / 256), ni.1,
        ni.2⟩ : P RemoteGTPUPeer)) r2 (P.Reads.pure _) (pre ++ be16 0) post sp
      rw [List.append_nil] at r
      rw [show pre ++ be16 0 ++ (UInt8.ofNat (f.niLength.toNat / 256) :: (UInt8.ofNat f.niLength.toNat :: (f.ni ++ post)))
        = pre ++ be16 0 ++ (be16 f.niLength ++ f.ni) ++ post by rw [hx]; simp]
      have hlen : (pre ++ be16 0).length = pre.length + 2 + (0 : UInt16).toNat := by
        rw [List.length_append, be16_length]; rfl
      rw [hlen] at r
      refine Eq.trans r ?_
      congr 2
      simp only [List.length_append, be16_length]
      rw [hz]
      omega
    · have hz : f.diLength.toNat ≠ 0 := fun e => e0 (UInt16.toNat_inj.1 e)
      simp only [if_neg e0, diWire]
      refine P.Reads.bind (a := (f.diLength, f.di)) ?_ (P.Reads.bind r2 (P.Reads.pure _))
      intro pre post sp
      have := parseDI_at pre (List.replicate (f.diLength.toNat - 1) 0 ++ post) sp f.diLength f.di (by simp; omega)
      rw [show pre ++ (be16 f.diLength ++ f.di :: List.replicate (f.diLength.toNat - 1) 0) ++ post
        = pre ++ be16 f.diLength ++ (f.di :: (List.replicate (f.diLength.toNat - 1) 0 ++ post)) by simp]
      refine Eq.trans this ?_
      congr 2
      simp only [List.length_append, be16_length, List.length_cons, List.length_replicate]
      omega

/-- What a decoder success says about lengths. -/
theorem parse_shape {d : Bytes} {v : RemoteGTPUPeer} (h : codec.parse ⟨d, []⟩ = .ok v) :
    ((has2ndBit v.flags = v.v4.isSome ∧ v.v4.Len 4) ∧ (has1stBit v.flags = v.v6.isSome ∧ v.v6.Len 16)) ∧
    (has4thBit v.flags = true → v.ni.length = v.niLength.toNat) ∧
    1 + (if has2ndBit v.flags then 4 else 0) + (if has1stBit v.flags then 16 else 0) +
      (if has3rdBit v.flags then 2 + v.diLength.toNat else 0) + (if has4thBit v.flags then 2 + v.niLength.toNat else 0)
      ≤ d.length ∧
    (has3rdBit v.flags = true →
      1 + (if has2ndBit v.flags then 4 else 0) + (if has1stBit v.flags then 16 else 0) + 2 < d.length) ∧ 2 ≤ d.length := by
  obtain ⟨hl, o, h⟩ := run_minLen_inv h
  simp only at hl
  obtain ⟨f, o1, h1, h⟩ := P.bind_inv h
  obtain ⟨_, rfl⟩ := P.u8_inv h1
  obtain ⟨v4, o2, h2, h⟩ := P.bind_inv h
  obtain ⟨w4, _, _, e4, ⟨rfl, a1, a2⟩, hl2⟩ := P.Takes.raw (k := 0) d [] _ v4 o2 (by omega) h2
  obtain ⟨v6, o3, h3, h⟩ := P.bind_inv h
  obtain ⟨w6, _, _, e6, ⟨rfl, b1, b2⟩, hl3⟩ := P.Takes.raw (k := 0) d [] _ v6 o3 hl2 h3
  rw [a2.val, a1] at e4
  rw [b2.val, b1] at e6
  obtain ⟨di, o5, h5, h⟩ := P.bind_inv h
  have hdi : o5 ≤ d.length ∧ o5 = o3 + (if has3rdBit f then 2 + di.1.toNat else 0) ∧ (has3rdBit f = true → o3 + 2 < d.length) := by
    cases e3 : has3rdBit f
    · rw [e3] at h5
      cases h5
      exact ⟨hl3, rfl, fun h => by cases h⟩
    · rw [e3] at h5
      obtain ⟨n, p1, q1, h5⟩ := P.bind_inv h5
      obtain ⟨w, _, _, rfl, rfl, _⟩ := P.Takes.f16 (k := 0) d [] o3 n p1 hl3 q1
      obtain ⟨_, p2, q2, h5⟩ := P.bind_inv h5
      obtain ⟨hq, rfl⟩ := P.need_inv q2
      obtain ⟨y, p3, q3, h5⟩ := P.bind_inv h5
      unfold P.peek at q3
      cases hx : Slice.idx ⟨d, []⟩ (o3 + (be16 n).length + 0) with
      | panic => rw [hx] at q3; cases q3
      | err e => rw [hx] at q3; cases q3
      | ok z =>
        rw [hx] at q3
        cases q3
        cases h5
        rw [be16_length] at *
        simp only at hq
        refine ⟨hq, by simp only [if_true]; omega, fun _ => ?_⟩
        unfold Slice.idx at hx
        simp only at hx
        cases hy : d[o3 + 2 + 0]? with
        | none => rw [hy] at hx; cases hx
        | some y' => exact (List.getElem?_eq_some_iff.1 hy).1
  obtain ⟨hd1, hd2, hd3⟩ := hdi
  obtain ⟨ni, o6, h6, h⟩ := P.bind_inv h
  cases h
  have hni : o ≤ d.length ∧ o = o5 + (if has4thBit f then 2 + ni.1.toNat else 0) ∧
      (has4thBit f = true → ni.2.length = ni.1.toNat) := by
    cases e4 : has4thBit f
    · rw [e4] at h6
      cases h6
      exact ⟨hd1, rfl, fun h => by cases h⟩
    · rw [e4] at h6
      obtain ⟨w, _, _, e, ⟨rfl, hw⟩, hl6⟩ := parseNI_takes 0 d [] o5 ni o hd1 h6
      rw [List.length_append, be16_length, hw] at e
      exact ⟨hl6, by simp only [if_true]; omega, fun _ => hw⟩
  obtain ⟨hn1, hn2, hn3⟩ := hni
  refine ⟨⟨⟨a1.symm, a2⟩, b1.symm, b2⟩, hn3, ?_, ?_, hl⟩
  · simp only
    omega
  · intro e
    have := hd3 e
    simp only
    omega

end RemoteGTPUPeer

/-- C80. With the fifth bit no address may be announced; a destination interface of length 0 comes back only with a network
instance behind it and only if it equals the high octet of that one's length. -/
theorem C80_RemoteGTPUPeer (v : RemoteGTPUPeer) : RemoteGTPUPeer.codec.Keeps v ↔
    (bit v.flags 0 = true ∨ bit v.flags 1 = true ∨ bit v.flags 2 = true ∨ bit v.flags 3 = true) ∧
    (bit v.flags 4 = true → bit v.flags 0 = false ∧ bit v.flags 1 = false) ∧
    Announced (bit v.flags 1) 4 v.v4 ∧ Announced (bit v.flags 0) 16 v.v6 ∧
    (if bit v.flags 2 then
      v.diLength = 0 → bit v.flags 3 = true ∧ v.di = UInt8.ofNat (v.niLength.toNat / 256)
    else v.diLength = 0 ∧ v.di = 0) ∧
    v.ni.length = v.niLength.toNat ∧ (bit v.flags 3 = false → v.ni = []) := by
  rw [keeps_iff (R := v.Fits ∧ 2 ≤ v.wireAll.length) (e := v.wireAll) (v' := _)]
  rotate_left
  · intro w hm hp
    obtain ⟨h1, h2, h3, h4, h5⟩ := RemoteGTPUPeer.parse_shape hp
    have hw := RemoteGTPUPeer.marshal_length hm
    have hf : v.Fits := by
      rw [hw] at h3 h4
      refine ⟨?_, h1, ?_, h2⟩
      · unfold RemoteGTPUPeer.marshalLen at h3
        revert h3
        cases has5thBit v.flags <;> cases has1stBit v.flags <;> cases has2ndBit v.flags <;> cases has3rdBit v.flags <;>
          cases has4thBit v.flags <;> simp <;> omega
      · intro e3 e0
        have h4 := h4 e3
        have hz : v.diLength.toNat = 0 := by rw [e0]; rfl
        unfold RemoteGTPUPeer.marshalLen at h4
        rw [e3, hz] at h4
        revert h4
        cases has5thBit v.flags <;> cases has1stBit v.flags <;> cases has2ndBit v.flags <;>
          cases has4thBit v.flags <;> simp
    refine ⟨hf, ?_⟩
    rw [RemoteGTPUPeer.wireAll_length v hf, ← hw]
    exact h5
  · exact fun h => ⟨RemoteGTPUPeer.emits_all v h.1 h.2,
      fun sp => by have := RemoteGTPUPeer.reads_all v h.1 h.2 [] sp; rwa [List.append_nil] at this⟩
  · rw [← announced_raw, ← announced_raw]
    obtain ⟨f, a, b, m, x, n, y⟩ := v
    have nil : y = [] ↔ y.length = 0 := by cases y <;> simp
    have nz : n = 0 ↔ n.toNat = 0 := by
      constructor
      · rintro rfl; rfl
      · intro h; exact UInt16.toNat_inj.1 h
    constructor
    · rintro ⟨⟨hf, hl⟩, he⟩
      rw [RemoteGTPUPeer.wireAll_length _ hf] at hl
      simp only [RemoteGTPUPeer.Fits, RemoteGTPUPeer.marshalLen, has1stBit_eq, has2ndBit_eq, has3rdBit_eq, has4thBit_eq,
        has5thBit_eq, RemoteGTPUPeer.mk.injEq, true_and, ite_self_iff] at hf hl he ⊢
      obtain ⟨g1, ⟨g2, g3⟩, g4, g5⟩ := hf
      obtain ⟨e1, e2, e3, e4⟩ := he
      refine ⟨?_, g1, g2, g3, ?_, ?_, e4⟩
      · revert hl
        cases bit f 0 <;> cases bit f 1 <;> cases bit f 2 <;> cases bit f 3 <;> simp
      · cases h2 : bit f 2
        · rw [h2] at e1 e2
          exact ⟨e1 rfl, e2.symm⟩
        · rw [h2] at e2
          simp only [if_true] at e2 ⊢
          intro h0
          rw [if_pos h0] at e2
          exact ⟨g4 h2 h0, e2.symm⟩
      · cases h3 : bit f 3
        · rw [e4 h3, e3 h3]; rfl
        · exact g5 h3
    · rintro ⟨h0, g1, g2, g3, hd, hn, hy⟩
      have hf : RemoteGTPUPeer.Fits ⟨f, a, b, m, x, n, y⟩ := by
        simp only [RemoteGTPUPeer.Fits, has1stBit_eq, has2ndBit_eq, has3rdBit_eq, has4thBit_eq, has5thBit_eq]
        refine ⟨g1, ⟨g2, g3⟩, ?_, fun _ => hn⟩
        intro e1 e2
        simp only at hd
        rw [e1] at hd
        exact (hd e2).1
      refine ⟨⟨hf, ?_⟩, ?_⟩
      · rw [RemoteGTPUPeer.wireAll_length _ hf]
        simp only [RemoteGTPUPeer.marshalLen, has1stBit_eq, has2ndBit_eq, has3rdBit_eq, has4thBit_eq, has5thBit_eq]
        simp only at h0 g1
        revert h0 g1
        cases bit f 0 <;> cases bit f 1 <;> cases bit f 2 <;> cases bit f 3 <;> cases bit f 4 <;> simp <;> omega
      · simp only [has3rdBit_eq, has4thBit_eq, RemoteGTPUPeer.mk.injEq, true_and, ite_self_iff]
        simp only at hd hn hy
        refine ⟨?_, ?_, ?_, hy⟩
        · intro h2
          rw [h2] at hd
          exact hd.1
        · cases h2 : bit f 2
          · rw [h2] at hd
            exact hd.2.symm
          · rw [h2] at hd
            simp only [if_true] at hd ⊢
            split
            · rename_i h0
              exact (hd h0).2.symm
            · rfl
        · intro h3
          rw [hy h3] at hn
          exact nz.2 hn.symm

/-- A peer with everything, with one octet of destination interface. -/
example : RemoteGTPUPeer.codec.Keeps ⟨0x0f, some [1, 2, 3, 4], some (List.replicate 16 7), 1, 3, 2, [8, 9]⟩ := by
  rw [C80_RemoteGTPUPeer]
  refine ⟨by decide, by decide, ?_, ?_, ?_, by decide, by decide⟩
  · exact ⟨_, rfl, rfl⟩
  · exact ⟨_, rfl, rfl⟩
  · show ((1 : UInt16) = 0 → _)
    exact fun h => absurd h (by decide)

/-- The fifth bit with an address. -/
example : ¬ RemoteGTPUPeer.codec.Keeps ⟨0x12, some [1, 2, 3, 4], none, 0, 0, 0, []⟩ := by
  rw [C80_RemoteGTPUPeer]
  rintro ⟨_, h, _⟩
  exact absurd (h (by decide)).2 (by decide)

/-- An empty flow description alone, and with a ToS behind it. -/
example : ¬ SDFFilter.codec.Keeps ⟨0x01, 0, [], [], [], [], 0⟩ := by
  rw [C80_SDFFilter]
  rintro ⟨h, _⟩
  revert h
  decide
example : SDFFilter.codec.Keeps ⟨0x03, 0, [], [1, 2], [], [], 0⟩ := by
  rw [C80_SDFFilter]
  decide

end Fields
end Pfcp
