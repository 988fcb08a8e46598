/- Property theorems C32 and C53 for PLMN identities and TraceInformation, from the octets: every PLMN identity comes back
from its digits, and precisely the trace informations that come back when what was decoded is encoded again. -/
import Verif.Fields.Lossless

namespace Pfcp

namespace Text

/-- An octet from its two digits. -/
theorem digits_inj {x y : UInt8} (h1 : hexDigit (x >>> 4) = hexDigit (y >>> 4))
    (h2 : hexDigit (x &&& 0x0f) = hexDigit (y &&& 0x0f)) : x = y := by
  have hx := hexDecode_encode [x]
  have hy := hexDecode_encode [y]
  simp only [hexEncode] at hx hy
  rw [h1, h2, hy] at hx
  injection hx with hx
  injection hx with hx
  exact hx.symm

theorem decodePLMN_inj {p q : Bytes} (hp : p.length = 3) (hq : q.length = 3) (h : decodePLMN p = decodePLMN q) : p = q := by
  match p, q, hp, hq with
  | [x, y, z], [x', y', z'], _, _ =>
    unfold decodePLMN at h
    simp only [hexEncode, index, List.getElem?_cons_zero, List.getElem?_cons_succ, Res.ok_bind, Res.pure_eq] at h
    injection h with h
    injection h with h1 h2
    simp only [List.cons.injEq, and_true] at h1
    obtain ⟨a1, a2, a3⟩ := h1
    have hz : z = z' ∧ hexDigit (y >>> 4) = hexDigit (y' >>> 4) := by
      by_cases c : hexDigit (y >>> 4) = 102 <;> by_cases c' : hexDigit (y' >>> 4) = 102 <;>
        simp only [c, c', ne_eq, not_true_eq_false, not_false_eq_true, if_true, if_false, List.cons_append,
          List.nil_append, List.cons.injEq, and_true, reduceCtorEq, and_false] at h2
      · exact ⟨digits_inj h2.2 h2.1, by rw [c, c']⟩
      · exact ⟨digits_inj h2.2.1 h2.1, h2.2.2⟩
    rw [digits_inj a2 a1, digits_inj hz.2 a3, hz.1]

/-- C32, from the octets: every PLMN identity of three octets, of whatever digits, decodes to strings that encode to it. -/
theorem C32_octets (p : Bytes) (h : p.length = 3) :
    ∃ mcc mnc, decodePLMN p = .ok (mcc, mnc) ∧ encodePLMN mcc mnc = .ok p := by
  match hd : decodePLMN p with
  | .ok (mcc, mnc) =>
    obtain ⟨q, hq, h1, h2⟩ := (decodePLMN_good hd).round
    rw [decodePLMN_inj h hq (hd.trans h2.symm)]
    exact ⟨mcc, mnc, rfl, h1⟩
  | .panic => exact absurd ((C32_total p).1 hd) (by omega)
  | .err e =>
    exfalso
    match p, h with
    | [x, y, z], _ => cases hd

example : decodePLMN [0xff, 0xff, 0xff] = .ok ([102, 102, 102], [102, 102]) ∧
    encodePLMN [102, 102, 102] [102, 102] = .ok [0xff, 0xff, 0xff] := by decide

end Text

namespace Fields
open Text

namespace TraceInformation

theorem takes_plmn {k : Nat} : P.Takes (k + 3) parsePLMN k
    (fun r w => w.length = 3 ∧ encodePLMN r.1 r.2 = .ok w) := by
  intro d sp o r o' ho h
  unfold parsePLMN at h
  rw [P.sub_data _ _ _ _ (by omega) (by omega), Res.ok_bind] at h
  have hl : ((d.take (o + 3)).drop o).length = 3 := by simp; omega
  obtain ⟨mcc, mnc, h1, h2⟩ := C32_octets _ hl
  simp only at h
  rw [h1, Res.ok_bind] at h
  cases h
  refine ⟨(d.take (o + 3)).drop o, d.drop (o + 3), ?_, by rw [hl], ⟨hl, h2⟩, by omega⟩
  rw [List.drop_take, show o + 3 - o = 3 by omega, ← List.drop_drop, List.take_append_drop]

theorem takes_octet {k : Nat} : P.Takes k parseOctet 0 (fun x w => w = [x]) := by
  intro d sp o x o' ho h
  obtain ⟨h1, h2⟩ : d[o]? = some x ∧ o' = o + 1 := by
    obtain ⟨_, o1, h1, h2⟩ := P.bind_inv h
    unfold P.need at h1
    split at h1
    · cases h1
    · cases h1
      unfold P.u8 Slice.idx at h2
      simp only at h2
      cases hx : d[o]? with
      | none => rw [hx] at h2; cases h2
      | some y => rw [hx] at h2; cases h2; exact ⟨rfl, rfl⟩
  obtain ⟨hl, hx⟩ := List.getElem?_eq_some_iff.1 h1
  refine ⟨[x], d.drop (o + 1), ?_, h2, rfl, by omega⟩
  rw [List.drop_eq_getElem_cons hl, hx]
  rfl

theorem takes_dropped {k : Nat} : P.Takes k parseDropped 0 (fun n w => ∃ x, w = n :: x ∧ x.length = n.toNat) := by
  refine (P.Takes.bind takes_octet fun n => P.Takes.bind P.Takes.need fun _ =>
    P.Takes.bind ((P.Takes.bytes (k := 0) n.toNat).relax (by omega) (Nat.le_refl _)) fun _ => P.Takes.pure n).weaken ?_
  rintro a w ⟨n, _, _, rfl, ⟨_, _, _, rfl, ⟨x, _, _, ⟨rfl, hx⟩, ⟨rfl, rfl⟩, rfl⟩, rfl⟩, rfl⟩
  exact ⟨_, by simp, hx⟩

/-- What was decoded, encoded: the lists announced and dropped are zeros. -/
theorem emits_dropped {p : Bytes} (hp : p.length = 3) {mcc mnc id : Bytes} (hi : id.length = 3)
    (he : encodePLMN mcc mnc = .ok p) (n1 d n2 n3 : UInt8) :
    codec.marshal ⟨mcc, mnc, id, n1, [], d, n2, [], n3, none⟩ = .ok (p ++ (id ++ ([n1] ++ (List.replicate n1.toNat 0 ++
      ([d] ++ ([n2] ++ (List.replicate n2.toNat 0 ++ ([n3] ++ List.replicate n3.toNat 0)))))))) := by
  have hplmn : W.Emits (plmnW mcc mnc) p := by
    intro pre n hn
    unfold plmnW
    rw [he, Res.ok_bind]
    exact W.Emits.copy p hp pre n hn
  have hz : ∀ n : UInt8, W.Emits (W.copy n.toNat []) (List.replicate n.toNat 0) := by
    intro n
    have := W.Emits.copy_short (n := n.toNat) [] (by simp)
    simpa using this
  have hlen : (p ++ (id ++ ([n1] ++ (List.replicate n1.toNat (0 : UInt8) ++
      ([d] ++ ([n2] ++ (List.replicate n2.toNat 0 ++ ([n3] ++ (List.replicate n3.toNat 0 ++ []))))))))).length =
      marshalLen ⟨mcc, mnc, id, n1, [], d, n2, [], n3, none⟩ := by
    simp [marshalLen, hp, hi]
    omega
  rw [← List.append_nil (List.replicate n3.toNat (0 : UInt8))]
  show W.marshal (marshalW _) (marshalLen _) = _
  rw [← hlen]
  refine W.Emits.marshal_minLen (by simp [hi, hp]; omega) (W.Emits.seq hplmn (W.Emits.seq (W.Emits.copy _ hi) ?_))
  refine W.Emits.need (Nat.zero_le _) (W.Emits.seq (W.Emits.u8 _) (W.Emits.need (by simp)
    (W.Emits.seq (hz n1) ?_)))
  refine W.Emits.need (Nat.zero_le _) (W.Emits.seq (W.Emits.u8 _) ?_)
  refine W.Emits.need (Nat.zero_le _) (W.Emits.seq (W.Emits.u8 _) (W.Emits.need (by simp)
    (W.Emits.seq (hz n2) ?_)))
  exact W.Emits.need (Nat.zero_le _) (W.Emits.seq (W.Emits.u8 _) (W.Emits.need (by simp)
    (W.Emits.tail (hz n3))))

end TraceInformation

/-- C53, exactly: whatever is accepted is a PLMN identity, a trace identifier, three announced fields of which only the
lengths are kept and the depth between them. It comes back if and only if the three fields are all zeros. -/
theorem C53_TraceInformation_exact (s : Slice) (v : TraceInformation) (h : TraceInformation.codec.parse s = .ok v) :
    ∃ p id e i a post, p.length = 3 ∧ id.length = 3 ∧ e.length = v.eventsLen.toNat ∧ i.length = v.ifsLen.toNat ∧
      a.length = v.ipLen.toNat ∧
      s.data = p ++ (id ++ ([v.eventsLen] ++ (e ++ ([v.depth] ++ ([v.ifsLen] ++ (i ++ ([v.ipLen] ++ (a ++ post)))))))) ∧
      ((∃ w post, TraceInformation.codec.marshal v = .ok w ∧ s.data = w ++ post) ↔
        (∀ x ∈ e, x = 0) ∧ (∀ x ∈ i, x = 0) ∧ ∀ x ∈ a, x = 0) := by
  obtain ⟨w, post, hd, hR, _⟩ := P.Takes.run' (n := 6) (m := 0)
    (P.Takes.bind (TraceInformation.takes_plmn (k := 3)) fun p => P.Takes.bind (P.Takes.bytes (k := 0) 3) fun id =>
      P.Takes.bind TraceInformation.takes_dropped fun n1 => P.Takes.bind TraceInformation.takes_octet fun d =>
      P.Takes.bind TraceInformation.takes_dropped fun n2 => P.Takes.bind TraceInformation.takes_dropped fun n3 =>
      P.Takes.pure (⟨p.1, p.2, id, n1, [], d, n2, [], n3, none⟩ : TraceInformation)) s v h
  obtain ⟨⟨mcc, mnc⟩, p, _, ⟨hp, he⟩, ⟨_, id, _, ⟨rfl, hi⟩, ⟨n1, _, _, ⟨e, rfl, h1⟩, ⟨d, _, _, rfl,
    ⟨n2, _, _, ⟨i, rfl, h2⟩, ⟨n3, _, _, ⟨a, rfl, h3⟩, ⟨rfl, rfl⟩, rfl⟩, rfl⟩, rfl⟩, rfl⟩, rfl⟩, rfl⟩ := hR
  refine ⟨p, id, e, i, a, post, hp, hi, h1, h2, h3, by rw [hd]; simp, ?_⟩
  have hm := TraceInformation.emits_dropped hp hi he n1 d n2 n3
  have zeros : ∀ {n : Nat} {x : Bytes}, x.length = n → (x = List.replicate n 0 ↔ ∀ y ∈ x, y = 0) := by
    rintro n x rfl
    rw [List.eq_replicate_iff]
    simp
  rw [← zeros h1, ← zeros h2, ← zeros h3, hd]
  constructor
  · rintro ⟨w, q, hw, e0⟩
    rw [hm] at hw
    cases hw
    simp only [List.append_assoc, List.cons_append, List.nil_append, List.append_nil] at e0
    have e1 := List.append_cancel_left (List.append_cancel_left e0)
    simp only [List.cons.injEq, true_and] at e1
    obtain ⟨r1, e2⟩ := List.append_inj e1 (by simp [h1])
    simp only [List.cons.injEq, true_and] at e2
    obtain ⟨r2, e3⟩ := List.append_inj e2 (by simp [h2])
    simp only [List.cons.injEq, true_and] at e3
    exact ⟨r1, r2, (List.append_inj e3 (by simp [h3])).1⟩
  · rintro ⟨r1, r2, r3⟩
    refine ⟨_, post, hm, ?_⟩
    rw [← r1, ← r2, ← r3]
    simp

example : TraceInformation.codec.parse ⟨[0x21, 0xf3, 0x54, 1, 2, 3, 1, 0, 5, 1, 0, 0], []⟩ =
    .ok ⟨[49, 50, 51], [52, 53], [1, 2, 3], 1, [], 5, 1, [], 0, none⟩ := by decide

/-- C31, from the octets: read with the last digit cut and written with the filler, they come back if and only if there
are none or the upper half of the last one is the filler; otherwise they come back with the filler there. -/
theorem C31_octets_iff (b : Bytes) : (strToSwappedBytes (swappedBytesToStr b true) fillerF = .ok b ↔
      ∀ x, b.getLast? = some x → x >>> 4 = 15) ∧
    ∀ r x, b = r ++ [x] → strToSwappedBytes (swappedBytesToStr b true) fillerF = .ok (r ++ [x ||| 0xf0]) := by
  have key : ∀ r x, b = r ++ [x] → strToSwappedBytes (swappedBytesToStr b true) fillerF = .ok (r ++ [x ||| 0xf0]) := by
    rintro r x rfl
    have h1 : ∀ x : UInt8, (x ||| 0xf0) &&& 0x0f = x &&& 0x0f := forall_byte (by decide +kernel)
    have h2 : ∀ x : UInt8, (x ||| 0xf0) >>> 4 = 15 := forall_byte (by decide +kernel)
    show strToSwappedBytes (UserID.digits _) fillerF = _
    rw [UserID.digits_snoc, ← h1, ← UserID.digits_snoc]
    exact UserID.digits_filled _ (Or.inr ⟨_, by simp, h2 x⟩)
  refine ⟨?_, key⟩
  by_cases h0 : b = []
  · subst h0
    exact ⟨fun _ x h => by simp at h, fun _ => rfl⟩
  · obtain ⟨r, x, e⟩ : ∃ r x, b = r ++ [x] := ⟨_, _, (List.dropLast_concat_getLast h0).symm⟩
    have h3 : ∀ x : UInt8, (x ||| 0xf0) = x ↔ x >>> 4 = 15 := forall_byte (by decide +kernel)
    rw [key r x e, e]
    simp [h3]

example : strToSwappedBytes (swappedBytesToStr [0x21, 0x43] true) fillerF = .ok [0x21, 0xf3] := by decide
example : strToSwappedBytes (swappedBytesToStr [0x21, 0xf3] true) fillerF = .ok [0x21, 0xf3] := by decide

end Fields
end Pfcp
