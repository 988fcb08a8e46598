/-
Exact conditions for the header: C14 (round trip of any header), C16 (setters and constructor for any arguments) and C70
(version).
-/
import Verif.Message.HeaderProps
import Verif.Message.FileLemmas
import Verif.Message.Props

namespace Pfcp
namespace Header

/-- `NewHeaderNodeRelated`, /repo/message/header.go:40-42. -/
def newNodeRelated (ver mtype : UInt8) (seq : UInt32) (payload : Bytes) : Header :=
  new ver 0 0 0 mtype 0 seq 0 payload

/-- `NewHeaderSessionRelated`, /repo/message/header.go:45-48. -/
def newSessionRelated (ver fo mp s mtype : UInt8) (seid : UInt64) (seq : UInt32) (pri : UInt8) (payload : Bytes) :
    Header :=
  new ver fo mp s mtype seid seq pri payload

/-! ### C14 -/

/-- C14, for every header: what comes back has the sequence number modulo 2^24, and no session id unless flagged. -/
theorem C14_exact (h : Header) :
    (h.marshal >>= parse) = .ok { h with
      seq := UInt32.ofNat (h.seq.toNat % 2 ^ 24)
      seid := if h.flags.toNat.testBit 0 then h.seid else 0 } := by
  have key : ∀ f : UInt8, has1stBit f = f.toNat.testBit 0 := by
    apply forall_byte; decide +kernel
  have hn : (UInt32.ofNat (h.seq.toNat % 2 ^ 24)).toNat = h.seq.toNat % 2 ^ 24 := by
    rw [UInt32.toNat_ofNat']; omega
  rw [marshal_eq, Res.ok_bind]
  have hb : beBytes 3 (h.seq.toNat % 2 ^ 24) = beBytes 3 h.seq.toNat := by
    have h1 := beNat_beBytes 3 h.seq.toNat
    have h2 := beBytes_beNat (beBytes 3 h.seq.toNat)
    rw [h1, beBytes_length] at h2
    exact h2
  have he : h.enc = enc { h with
      seq := UInt32.ofNat (h.seq.toNat % 2 ^ 24)
      seid := if h.flags.toNat.testBit 0 then h.seid else 0 } := by
    unfold enc
    simp only [hn, hb]
    rw [key]
    cases h.flags.toNat.testBit 0 <;> rfl
  rw [he]
  refine parse_enc _ ⟨?_, ?_⟩
  · show (UInt32.ofNat (h.seq.toNat % 2 ^ 24)).toNat < 2 ^ 24
    rw [hn]; omega
  · intro hf
    show (if h.flags.toNat.testBit 0 then h.seid else 0) = 0
    have hf' : has1stBit h.flags = false := hf
    rw [← key, hf']
    rfl

/-- C14, exactly: a header survives if and only if its sequence number has 24 bits and, without the S flag, its session
id is 0. -/
theorem C14_iff (h : Header) :
    (h.marshal >>= parse) = .ok h ↔ h.seq.toNat < 2 ^ 24 ∧ (h.flags.toNat.testBit 0 = false → h.seid = 0) := by
  rw [C14_exact, Res.ok.injEq]
  constructor
  · intro e
    have h1 := congrArg Header.seq e
    have h2 := congrArg Header.seid e
    simp only at h1 h2
    have hn : (UInt32.ofNat (h.seq.toNat % 2 ^ 24)).toNat = h.seq.toNat % 2 ^ 24 := by
      rw [UInt32.toNat_ofNat']; omega
    refine ⟨by rw [h1] at hn; omega, ?_⟩
    intro hf
    rw [hf] at h2
    exact h2.symm
  · rintro ⟨h1, h2⟩
    have hs : UInt32.ofNat (h.seq.toNat % 2 ^ 24) = h.seq := by
      rw [Nat.mod_eq_of_lt h1, UInt32.ofNat_toNat]
    rw [hs]
    cases hf : h.flags.toNat.testBit 0 with
    | true => rfl
    | false => rw [← h2 hf]; rfl

example : (⟨0x20, 1, 4, 7, 0x1000001, 0, []⟩ : Header).marshal >>= parse = .ok ⟨0x20, 1, 4, 0, 1, 0, []⟩ := by decide

/-! ### C16 -/

/-- C16 (c), exactly: `SetMP` turns on the FO flag (bit 3) and no other, and stores the low four bits of its argument in
the upper half octet. -/
theorem C16_setMP_exact (h : Header) (p : UInt8) :
    h.setMP p = { h with
      flags := UInt8.ofNat (h.flags.toNat ||| 4)
      pri := UInt8.ofNat (p.toNat % 16 * 16) } := by
  have k1 : ∀ f : UInt8, f ||| ((1 : UInt8) <<< 2) = UInt8.ofNat (f.toNat ||| 4) := by
    apply forall_byte; decide +kernel
  have k2 : ∀ p : UInt8, (p <<< 4) &&& 0xf0 = UInt8.ofNat (p.toNat % 16 * 16) := by
    apply forall_byte; decide +kernel
  unfold setMP
  rw [k1, k2]

/-- C16 (c), exactly: it does what its comment says (MP set, every other flag as before) if and only if both MP and FO
were already set. -/
theorem C16_setMP_iff (h : Header) (p : UInt8) :
    (h.setMP p).flags = UInt8.ofNat (h.flags.toNat ||| 2) ↔
      h.flags.toNat.testBit 1 = true ∧ h.flags.toNat.testBit 2 = true := by
  have k : ∀ f : UInt8, UInt8.ofNat (f.toNat ||| 4) = UInt8.ofNat (f.toNat ||| 2) ↔
      f.toNat.testBit 1 = true ∧ f.toNat.testBit 2 = true := by
    apply forall_byte; decide +kernel
  rw [C16_setMP_exact]
  exact k h.flags

/-- C16 (d), exactly: `MP` of a constructed header is the upper half of the octet given; so a four-bit priority is read
back if and only if it is 0. -/
theorem C16_constructor_priority_iff (ver fo mp s t : UInt8) (seid : UInt64) (seq : UInt32) (p : UInt8)
    (payload : Bytes) :
    (Header.new ver fo mp s t seid seq p payload).mp.toNat = p.toNat / 16 ∧
    ((Header.new ver fo mp s t seid seq p payload).mp = p ↔ p = 0) := by
  have key : ∀ p : UInt8, ((p &&& 0xf0) >>> 4).toNat = p.toNat / 16 ∧ ((p &&& 0xf0) >>> 4 = p ↔ p = 0) := by
    apply forall_byte; decide +kernel
  exact key p

theorem bits (f : UInt8) : has1stBit f = f.toNat.testBit 0 ∧ has2ndBit f = f.toNat.testBit 1 ∧
    has3rdBit f = f.toNat.testBit 2 := by
  revert f
  apply forall_byte; decide +kernel

/-- C16 (e), for arbitrary octets: the arguments are shifted and combined without masking, so that an argument other
than 0 and 1 spills into the flags above its own. -/
theorem C16_constructor_flags_exact (ver fo mp s t : UInt8) (seid : UInt64) (seq : UInt32) (pri : UInt8)
    (payload : Bytes) (j : Nat) (hj : j < 8) :
    (Header.new ver fo mp s t seid seq pri payload).flags.toNat.testBit j =
      ((5 ≤ j && ver.toNat.testBit (j - 5)) || (2 ≤ j && fo.toNat.testBit (j - 2)) ||
        (1 ≤ j && mp.toNat.testBit (j - 1)) || s.toNat.testBit j) := by
  have k : ∀ x : UInt8, ∀ j : Fin 8, (((x &&& 0x7) <<< 5).toNat.testBit j = (decide (5 ≤ j.val) && x.toNat.testBit (j - 5))) ∧
      ((x <<< 2).toNat.testBit j = (decide (2 ≤ j.val) && x.toNat.testBit (j - 2))) ∧
      ((x <<< 1).toNat.testBit j = (decide (1 ≤ j.val) && x.toNat.testBit (j - 1))) := by
    apply forall_byte; decide +kernel
  show (((((ver &&& 0x7) <<< 5) ||| (fo <<< 2)) ||| (mp <<< 1)) ||| s).toNat.testBit j = _
  rw [UInt8.toNat_or, UInt8.toNat_or, UInt8.toNat_or, Nat.testBit_or, Nat.testBit_or, Nat.testBit_or,
    (k ver ⟨j, hj⟩).1, (k fo ⟨j, hj⟩).2.1, (k mp ⟨j, hj⟩).2.2]

/-- C16 (e), exactly: the constructor's flags are those asked for if and only if the arguments do not spill. -/
theorem C16_constructor_flags_iff (ver fo mp s t : UInt8) (seid : UInt64) (seq : UInt32) (pri : UInt8) (payload : Bytes) :
    ((Header.new ver fo mp s t seid seq pri payload).hasSEID = s.toNat.testBit 0 ∧
    ((Header.new ver fo mp s t seid seq pri payload).hasMP = mp.toNat.testBit 0 ↔
      (s.toNat.testBit 1 = true → mp.toNat.testBit 0 = true)) ∧
    ((Header.new ver fo mp s t seid seq pri payload).hasFO = fo.toNat.testBit 0 ↔
      (mp.toNat.testBit 1 = true ∨ s.toNat.testBit 2 = true → fo.toNat.testBit 0 = true))) := by
  have e := C16_constructor_flags_exact ver fo mp s t seid seq pri payload
  obtain ⟨h1, h2, h3⟩ := bits (Header.new ver fo mp s t seid seq pri payload).flags
  unfold hasSEID hasMP hasFO
  rw [h1, h2, h3, e 0 (by decide), e 1 (by decide), e 2 (by decide)]
  generalize fo.toNat.testBit 0 = a
  generalize mp.toNat.testBit 0 = b
  generalize mp.toNat.testBit (2 - 1) = c
  generalize s.toNat.testBit 0 = d
  generalize s.toNat.testBit 1 = e
  generalize s.toNat.testBit 2 = f
  generalize ver.toNat.testBit (0 - 5) = v
  revert a b c d e f v
  decide

/-- The two wrappers: a node header never carries a session id or a priority, a session header is `NewHeader`. -/
theorem C16_wrappers (ver fo mp s t : UInt8) (seid : UInt64) (seq : UInt32) (pri : UInt8) (payload : Bytes) :
    newNodeRelated ver t seq payload =
      ⟨ver <<< 5, t, UInt16.ofNat (4 + payload.length), 0, seq, 0, payload⟩ ∧
    newSessionRelated ver fo mp s t seid seq pri payload = new ver fo mp s t seid seq pri payload := by
  refine ⟨?_, rfl⟩
  have k : ∀ v : UInt8, ((v &&& 0x7) <<< 5) ||| ((0 : UInt8) <<< 2) ||| ((0 : UInt8) <<< 1) ||| (0 : UInt8) = v <<< 5 ∧
      has1stBit (v <<< 5) = false := by
    apply forall_byte; decide +kernel
  unfold newNodeRelated new setLength hasSEID
  simp only [(k ver).1, (k ver).2]
  rfl

/-! ### C70 -/

/-- C70, exactly: `Version` returns 1 whatever the header says, so it is right if and only if the header says 1. -/
theorem C70_version_iff (h : Header) : h.version = h.flags.toNat / 32 ↔ h.flags.toNat / 32 = 1 := by
  show (1 : Nat) = _ ↔ _
  exact eq_comm

/-- C70 is false: for each of the eight versions there is a datagram that is decoded as a header of that version. -/
theorem C70_version_violated (v : Fin 8) :
    ∃ b h, parse b = .ok h ∧ h.flags.toNat / 32 = v ∧ h.version = 1 := by
  refine ⟨[UInt8.ofNat (v.val * 32), 1, 0, 4, 0, 0, 1, 0],
    ⟨UInt8.ofNat (v.val * 32), 1, 4, 0, 1, 0, []⟩, ?_, ?_, rfl⟩
  · revert v; decide
  · revert v; decide

/-- C70: the version plays no part in decoding a header. Changing it changes only the flags. -/
theorem C70_version_ignored (f f' : UInt8) (rest : Bytes) (h : Header) (hf : f'.toNat % 32 = f.toNat % 32)
    (hp : parse (f :: rest) = .ok h) : parse (f' :: rest) = .ok { h with flags := f' } := by
  have k : ∀ f : UInt8, has1stBit f = (f.toNat % 32).testBit 0 := by
    apply forall_byte; decide +kernel
  have hb : has1stBit f' = has1stBit f := by rw [k, k, hf]
  rw [parse_eq] at hp ⊢
  split at hp
  · rename_i f0 t b2 b3 rest' heq
    simp only [List.cons.injEq] at heq
    obtain ⟨rfl, rfl⟩ := heq
    simp only [hb]
    by_cases h1 : has1stBit f = true
    · rw [if_pos h1] at hp ⊢
      split at hp
      · cases hp
      · rename_i h12
        rw [if_neg h12]
        cases hp; rfl
    · rw [if_neg h1] at hp ⊢
      split at hp
      · cases hp
      · rename_i h12
        rw [if_neg h12]
        cases hp; rfl
  · cases hp

end Header

/-- C70: a message of any version is decoded, and into the same fields. -/
theorem Msg.C70_message_ignored (g : IEType → Bool) (f f' : UInt8) (rest : Bytes) (m : Msg)
    (hf : f'.toNat % 32 = f.toNat % 32) (hp : Msg.parse g (f :: rest) = .ok m) :
    Msg.parse g (f' :: rest) = .ok { m with header := { m.header with flags := f' } } := by
  rw [Msg.parse_normal, Res.bind_eq_ok] at hp
  obtain ⟨h, hh, hp⟩ := hp
  rw [Msg.parse_normal, Header.C70_version_ignored f f' rest h hf hh, Res.ok_bind]
  simp only
  split at hp
  · rename_i h2
    rw [if_pos h2]
    cases hp; rfl
  · rename_i h2
    rw [if_neg h2]
    rw [Res.bind_eq_ok] at hp
    obtain ⟨xs, hx, hp⟩ := hp
    rw [hx, Res.ok_bind]
    cases hp; rfl

end Pfcp
