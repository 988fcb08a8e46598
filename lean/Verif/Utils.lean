/-
Model of the integer helpers of /repo/internal/utils/utils.go and /repo/message/misc.go.
-/
import Verif.Go

namespace Pfcp

/-- `Uint24To32`, /repo/internal/utils/utils.go:61-66 (and `uint24To32`, /repo/message/misc.go). -/
def uint24To32 (b : Bytes) : UInt32 :=
  match b with
  | [b0, b1, b2] => (b0.toUInt32 <<< 16) ||| (b1.toUInt32 <<< 8) ||| b2.toUInt32
  | _ => 0

/-- `Uint32To24`, /repo/internal/utils/utils.go:70-72. -/
def uint32To24 (n : UInt32) : Bytes := [(n >>> 16).toUInt8, (n >>> 8).toUInt8, n.toUInt8]

/-- `Uint40To64`, /repo/internal/utils/utils.go:76-81. -/
def uint40To64 (b : Bytes) : UInt64 :=
  match b with
  | [b0, b1, b2, b3, b4] =>
    (b0.toUInt64 <<< 32) ||| (b1.toUInt64 <<< 24) ||| (b2.toUInt64 <<< 16) ||| (b3.toUInt64 <<< 8) |||
      b4.toUInt64
  | _ => 0

/-- `Uint64To40`, /repo/internal/utils/utils.go:85-87. -/
def uint64To40 (n : UInt64) : Bytes :=
  [(n >>> 32).toUInt8, (n >>> 24).toUInt8, (n >>> 16).toUInt8, (n >>> 8).toUInt8, n.toUInt8]

theorem uint32To24_eq (n : UInt32) : uint32To24 n = beBytes 3 n.toNat := by
  simp only [uint32To24, beBytes]
  congr 1
  · apply UInt8.toNat.inj; simp [Nat.shiftRight_eq_div_pow]
  congr 1
  · apply UInt8.toNat.inj; simp [Nat.shiftRight_eq_div_pow]
  congr 1
  · apply UInt8.toNat.inj; simp

theorem uint64To40_eq (n : UInt64) : uint64To40 n = beBytes 5 n.toNat := by
  simp only [uint64To40, beBytes]
  congr 1
  · apply UInt8.toNat.inj; simp [Nat.shiftRight_eq_div_pow]
  congr 1
  · apply UInt8.toNat.inj; simp [Nat.shiftRight_eq_div_pow]
  congr 1
  · apply UInt8.toNat.inj; simp [Nat.shiftRight_eq_div_pow]
  congr 1
  · apply UInt8.toNat.inj; simp [Nat.shiftRight_eq_div_pow]
  congr 1
  · apply UInt8.toNat.inj; simp

theorem or_shift (a b k : Nat) (h : b < 2 ^ k) : (a <<< k) ||| b = a * 2 ^ k + b := by
  rw [← Nat.shiftLeft_add_eq_or_of_lt h, Nat.shiftLeft_eq]

theorem uint24To32_eq (b : Bytes) (h : b.length = 3) : uint24To32 b = UInt32.ofNat (beNat b) := by
  match b, h with
  | [b0, b1, b2], _ =>
    apply UInt32.toNat.inj
    have h0 := b0.toNat_lt
    have h1 := b1.toNat_lt
    have h2 := b2.toNat_lt
    simp only [uint24To32, beNat, List.foldl, UInt32.toNat_or, UInt32.toNat_shiftLeft,
      UInt8.toNat_toUInt32, UInt32.toNat_ofNat']
    have e1 : b0.toNat <<< ((16 : UInt32).toNat % 32) % 2 ^ 32 = b0.toNat <<< 16 := by
      rw [show (16 : UInt32).toNat % 32 = 16 from rfl, Nat.shiftLeft_eq]; omega
    have e2 : b1.toNat <<< ((8 : UInt32).toNat % 32) % 2 ^ 32 = b1.toNat <<< 8 := by
      rw [show (8 : UInt32).toNat % 32 = 8 from rfl, Nat.shiftLeft_eq]; omega
    rw [e1, e2, Nat.or_assoc, or_shift _ _ _ h2, or_shift _ _ _ (by omega)]
    omega

theorem uint40To64_eq (b : Bytes) (h : b.length = 5) : uint40To64 b = UInt64.ofNat (beNat b) := by
  match b, h with
  | [b0, b1, b2, b3, b4], _ =>
    apply UInt64.toNat.inj
    have h0 := b0.toNat_lt
    have h1 := b1.toNat_lt
    have h2 := b2.toNat_lt
    have h3 := b3.toNat_lt
    have h4 := b4.toNat_lt
    simp only [uint40To64, beNat, List.foldl, UInt64.toNat_or, UInt64.toNat_shiftLeft,
      UInt8.toNat_toUInt64, UInt64.toNat_ofNat']
    have e0 : b0.toNat <<< ((32 : UInt64).toNat % 64) % 2 ^ 64 = b0.toNat <<< 32 := by
      rw [show (32 : UInt64).toNat % 64 = 32 from rfl, Nat.shiftLeft_eq]; omega
    have e1 : b1.toNat <<< ((24 : UInt64).toNat % 64) % 2 ^ 64 = b1.toNat <<< 24 := by
      rw [show (24 : UInt64).toNat % 64 = 24 from rfl, Nat.shiftLeft_eq]; omega
    have e2 : b2.toNat <<< ((16 : UInt64).toNat % 64) % 2 ^ 64 = b2.toNat <<< 16 := by
      rw [show (16 : UInt64).toNat % 64 = 16 from rfl, Nat.shiftLeft_eq]; omega
    have e3 : b3.toNat <<< ((8 : UInt64).toNat % 64) % 2 ^ 64 = b3.toNat <<< 8 := by
      rw [show (8 : UInt64).toNat % 64 = 8 from rfl, Nat.shiftLeft_eq]; omega
    rw [e0, e1, e2, e3, Nat.or_assoc, Nat.or_assoc, Nat.or_assoc, or_shift _ _ _ h4,
      or_shift b2.toNat _ 16 (by omega), or_shift b1.toNat _ 24 (by omega),
      or_shift b0.toNat _ 32 (by omega)]
    omega

@[simp] theorem uint32To24_length (n : UInt32) : (uint32To24 n).length = 3 := rfl
@[simp] theorem uint64To40_length (n : UInt64) : (uint64To40 n).length = 5 := rfl

/-- `has1stBit`, /repo/ie/misc.go:35-37, /repo/message/misc.go. -/
def has1stBit (f : UInt8) : Bool := (f &&& 0x01) == 1
/-- `has2ndBit`, /repo/ie/misc.go:31-33, /repo/message/misc.go. -/
def has2ndBit (f : UInt8) : Bool := (f &&& 0x02) >>> 1 == 1
/-- `has3rdBit`, /repo/ie/misc.go:27-29, /repo/message/misc.go. -/
def has3rdBit (f : UInt8) : Bool := (f &&& 0x04) >>> 2 == 1
/-- `has4thBit`, /repo/ie/misc.go:23-25. -/
def has4thBit (f : UInt8) : Bool := (f &&& 0x08) >>> 3 == 1
/-- `has5thBit`, /repo/ie/misc.go:19-21. -/
def has5thBit (f : UInt8) : Bool := (f &&& 0x10) >>> 4 == 1
/-- `has6thBit`, /repo/ie/misc.go:15-17. -/
def has6thBit (f : UInt8) : Bool := (f &&& 0x20) >>> 5 == 1
/-- `has7thBit`, /repo/ie/misc.go:11-13. -/
def has7thBit (f : UInt8) : Bool := (f &&& 0x40) >>> 6 == 1
/-- `has8thBit`, /repo/ie/misc.go:7-9. -/
def has8thBit (f : UInt8) : Bool := (f &&& 0x80) >>> 7 == 1

/-- A property of bytes that holds for the 256 values holds for all. -/
theorem forall_byte {p : UInt8 → Prop} (h : ∀ n : Fin 256, p (UInt8.ofNat n.val)) : ∀ b, p b := by
  intro b
  have := h ⟨b.toNat, b.toNat_lt⟩
  simpa using this

end Pfcp
