/- Helper lemmas for the theorems about elements of several values. -/
import Verif.Ctor.Multi
import Verif.Ctor.Lemmas
import Verif.Message.HeaderProps

namespace Pfcp
open Fields

/-- Something about an element of a plain type that also survives the wire. -/
theorem made {P : Prop} (g : IEType → Bool) (t : IEType) (p rest : Bytes) (hg : g t = false)
    (hv : isVendor t = false) (hp : p.length ≤ 65535) (h : P) :
    ∃ b, (IE.new t p).marshal g = .ok b ∧ parse g (b ++ rest) = .ok (IE.new t p) ∧ P := by
  obtain ⟨b, h1, h2⟩ := new_wire g t p rest hg hv hp
  exact ⟨b, h1, h2, h⟩

/-- A call on an element of a type with a direct case; `n` is a lower bound for its size. -/
theorem call_new (g : IEType → Bool) (mem : IE → Bytes) (a : Acc) (t : IEType) (p : Bytes) (l : Leaf) (n : Nat)
    (h : a.table.cases.lookup t = some (.leaf l)) (hpre : a.table.pre ≤ n) (hn : n ≤ p.length) :
    a.call g mem (IE.new t p) = l.run g (IE.new t p) (mem (IE.new t p)) :=
  call_leaf g mem a (IE.new t p) l h (Nat.le_trans hpre hn)

theorem new_length (t : IEType) (p : Bytes) (hv : isVendor t = false) : (IE.new t p).length = UInt16.ofNat p.length := by
  unfold IE.new IE.setLength
  simp [hv]

/-- A slice out of the middle. -/
theorem sub_mid (a b c sp : Bytes) (lo hi : Nat) (hlo : a.length = lo) (hhi : lo + b.length = hi) :
    Slice.sub ⟨a ++ (b ++ c), sp⟩ lo hi = .ok ⟨b, c ++ sp⟩ := by
  unfold Slice.sub Slice.cap
  rw [if_pos ⟨by omega, by dsimp only; simp only [List.length_append]; omega⟩]
  subst hlo
  subst hhi
  dsimp only
  have e : a ++ (b ++ c) ++ sp = (a ++ b) ++ (c ++ sp) := by simp
  rw [e, List.take_left' (by simp), List.drop_left, List.drop_left' (by simp)]

theorem sub_first (b c sp : Bytes) (n : Nat) (h : b.length = n) :
    Slice.sub ⟨b ++ c, sp⟩ 0 n = .ok ⟨b, c ++ sp⟩ :=
  sub_mid [] b c sp 0 n rfl (by omega)

theorem sub_last (a b sp : Bytes) (lo hi : Nat) (hlo : a.length = lo) (hhi : lo + b.length = hi) :
    Slice.sub ⟨a ++ b, sp⟩ lo hi = .ok ⟨b, sp⟩ := by
  have h := sub_mid a b [] sp lo hi hlo hhi
  simpa using h

@[simp] theorem be16_len (v : UInt16) : (be16 v).length = 2 := beBytes_length _ _
@[simp] theorem be32_len (v : UInt32) : (be32 v).length = 4 := beBytes_length _ _
@[simp] theorem be64_len (v : UInt64) : (be64 v).length = 8 := beBytes_length _ _

/-- Two fields of two bits in one octet. -/
theorem two_fields (a b : UInt8) (ha : a < 4) (hb : b < 4) :
    (((a <<< 2) ||| b) >>> 2) &&& 0x03 = a ∧ ((a <<< 2) ||| b) &&& 0x03 = b := by
  have small : ∀ c : UInt8, c < 4 → c = 0 ∨ c = 1 ∨ c = 2 ∨ c = 3 := by
    refine forall_byte ?_
    decide +kernel
  rcases small a ha with rfl | rfl | rfl | rfl <;> rcases small b hb with rfl | rfl | rfl | rfl <;> decide

theorem and_three (a : UInt8) : a &&& 0x03 = a % 4 ∧ a % 4 < 4 := by
  revert a
  refine forall_byte ?_
  decide +kernel

/-- Two octets written as one number. -/
theorem be16_pair (a b : UInt8) : be16 ((a.toUInt16 <<< 8) ||| b.toUInt16) = [a, b] := by
  have ha := a.toNat_lt
  have hb := b.toNat_lt
  have e : ((a.toUInt16 <<< 8) ||| b.toUInt16).toNat = a.toNat * 256 + b.toNat := by
    rw [UInt16.toNat_or, UInt16.toNat_shiftLeft, UInt8.toNat_toUInt16, UInt8.toNat_toUInt16]
    rw [show (8 : UInt16).toNat % 16 = 8 from rfl]
    rw [show a.toNat <<< 8 % 2 ^ 16 = a.toNat <<< 8 by rw [Nat.shiftLeft_eq]; omega]
    rw [or_shift _ _ 8 (by omega)]
  unfold be16
  rw [e]
  simp only [beBytes]
  congr 1
  · apply UInt8.toNat.inj
    simp only [UInt8.toNat_ofNat']
    omega
  · congr 1
    apply UInt8.toNat.inj
    simp only [UInt8.toNat_ofNat']
    omega

end Pfcp
