/-
The fragment of Go semantics the model relies on: call outcomes, byte slices with capacity,
`encoding/binary` big-endian integers, `copy`.

Nothing here models a file of /repo; it is the (trusted) reading of the Go language specification
used by every other file.
-/
namespace Pfcp

abbrev Bytes := List UInt8

/-- Error values the library returns. /repo/ie/errors.go:13-43, plus `io.ErrUnexpectedEOF` and
errors of `encoding/hex`. -/
inductive GoErr where
  | unexpectedEOF
  | tooShortToParse
  | invalidLength
  /-- `ErrInvalidType` (the sentinel). -/
  | errInvalidType
  | ieNotFound
  | malformed
  | elementNotFound
  /-- `*InvalidTypeError{Type}`. -/
  | invalidTypeError (t : UInt16)
  /-- `*InvalidNodeIDError{ID}`. -/
  | invalidNodeID (id : UInt8)
  /-- an error of `hex.DecodeString`. -/
  | hexDecode
  /-- the text error of /repo/ie/f-teid.go:82, "cannot determine which value to return ...". -/
  | ambiguous
  deriving DecidableEq, Repr

/-- Outcome of a Go call: a value, a returned error, or a run-time panic. -/
inductive Res (α : Type) where
  | ok (a : α)
  | err (e : GoErr)
  | panic
  deriving DecidableEq, Repr

namespace Res

protected def bind {α β : Type} (x : Res α) (f : α → Res β) : Res β :=
  match x with
  | ok a => f a
  | err e => err e
  | panic => panic

instance : Monad Res where
  pure := Res.ok
  bind := Res.bind

variable {α β γ : Type}

@[simp] theorem pure_eq (a : α) : (pure a : Res α) = ok a := rfl
@[simp] theorem ok_bind (a : α) (f : α → Res β) : (ok a >>= f) = f a := rfl
@[simp] theorem err_bind (e : GoErr) (f : α → Res β) : ((err e : Res α) >>= f) = err e := rfl
@[simp] theorem panic_bind (f : α → Res β) : ((panic : Res α) >>= f) = panic := rfl
@[simp] theorem map_ok (f : α → β) (a : α) : f <$> (ok a : Res α) = ok (f a) := rfl
@[simp] theorem map_err (f : α → β) (e : GoErr) : f <$> (err e : Res α) = err e := rfl
@[simp] theorem map_panic (f : α → β) : f <$> (panic : Res α) = panic := rfl

instance : LawfulMonad Res := LawfulMonad.mk' Res
  (id_map := by intro α x; cases x <;> rfl)
  (pure_bind := by intros; rfl)
  (bind_assoc := by intro α β γ x f g; cases x <;> rfl)

theorem bind_eq_ok {x : Res α} {f : α → Res β} {b : β} :
    (x >>= f) = ok b ↔ ∃ a, x = ok a ∧ f a = ok b := by
  cases x <;> simp

theorem bind_eq_panic {x : Res α} {f : α → Res β} :
    (x >>= f) = panic ↔ x = panic ∨ ∃ a, x = ok a ∧ f a = panic := by
  cases x <;> simp

theorem bind_eq_err {x : Res α} {f : α → Res β} {e : GoErr} :
    (x >>= f) = err e ↔ x = err e ∨ ∃ a, x = ok a ∧ f a = err e := by
  cases x <;> simp

/-- The call did not panic. -/
def safe (x : Res α) : Prop := x ≠ panic

def isOk : Res α → Bool
  | ok _ => true
  | _ => false

end Res

/-! ### Big-endian integers (`encoding/binary`) -/

/-- The `n` low-order bytes of `v`, most significant first: `binary.BigEndian.PutUintN`. -/
def beBytes : Nat → Nat → Bytes
  | 0, _ => []
  | n + 1, v => UInt8.ofNat (v / 256 ^ n) :: beBytes n v

/-- The number whose big-endian bytes are given: `binary.BigEndian.UintN`. -/
def beNat (bs : Bytes) : Nat := bs.foldl (fun acc b => acc * 256 + b.toNat) 0

@[simp] theorem beBytes_length (n v : Nat) : (beBytes n v).length = n := by
  induction n generalizing v with
  | zero => rfl
  | succ n ih => simp [beBytes, ih]

theorem beNat_foldl (bs : Bytes) (a : Nat) :
    bs.foldl (fun acc b => acc * 256 + b.toNat) a = a * 256 ^ bs.length + beNat bs := by
  induction bs generalizing a with
  | nil => simp [beNat]
  | cons b bs ih =>
    simp only [List.foldl_cons, beNat, List.length_cons]
    rw [ih, ih (0 * 256 + b.toNat)]
    rw [Nat.pow_succ]
    simp only [Nat.zero_mul, Nat.zero_add, Nat.add_mul]
    rw [Nat.mul_assoc, Nat.mul_comm 256 (256 ^ bs.length)]
    omega

theorem beNat_cons (b : UInt8) (bs : Bytes) :
    beNat (b :: bs) = b.toNat * 256 ^ bs.length + beNat bs := by
  unfold beNat
  simp only [List.foldl_cons, Nat.zero_mul, Nat.zero_add]
  exact beNat_foldl bs b.toNat

theorem beNat_lt (bs : Bytes) : beNat bs < 256 ^ bs.length := by
  induction bs with
  | nil => simp [beNat]
  | cons b bs ih =>
    rw [beNat_cons, List.length_cons, Nat.pow_succ]
    have hb := b.toNat_lt
    have : b.toNat * 256 ^ bs.length ≤ 255 * 256 ^ bs.length := Nat.mul_le_mul_right _ (by omega)
    omega

theorem beNat_beBytes (n v : Nat) : beNat (beBytes n v) = v % 256 ^ n := by
  induction n with
  | zero => simp [beBytes, beNat, Nat.mod_one]
  | succ n ih =>
    rw [beBytes, beNat_cons, beBytes_length, ih, UInt8.toNat_ofNat',
      show (2:Nat) ^ 8 = 256 from rfl, Nat.pow_succ, Nat.mod_mul, Nat.mul_comm (256 ^ n)]
    omega

theorem beBytes_mod (n v : Nat) : beBytes n (v % 256 ^ n) = beBytes n v := by
  have key : ∀ k, n ≤ k → beBytes n (v % 256 ^ k) = beBytes n v := by
    induction n with
    | zero => intros; rfl
    | succ n ih =>
      intro k hk
      rw [beBytes, beBytes, ih k (by omega)]
      congr 1
      obtain ⟨m, rfl⟩ : ∃ m, k = n + (m + 1) := ⟨k - n - 1, by omega⟩
      apply UInt8.toNat.inj
      rw [UInt8.toNat_ofNat', UInt8.toNat_ofNat', Nat.pow_add, Nat.mod_mul_right_div_self,
        Nat.pow_succ, show (2:Nat) ^ 8 = 256 from rfl, Nat.mul_comm,
        Nat.mod_mul_right_mod]
  exact key n (Nat.le_refl n)

theorem beBytes_beNat (bs : Bytes) : beBytes bs.length (beNat bs) = bs := by
  induction bs with
  | nil => rfl
  | cons b bs ih =>
    rw [List.length_cons, beBytes]
    have h1 : beNat (b :: bs) / 256 ^ bs.length = b.toNat := by
      rw [beNat_cons, Nat.mul_comm, Nat.mul_add_div (Nat.pow_pos (by decide)),
        Nat.div_eq_of_lt (beNat_lt bs), Nat.add_zero]
    have h2 : beBytes bs.length (beNat (b :: bs)) = bs := by
      rw [← beBytes_mod, beNat_cons, Nat.mul_comm, Nat.mul_add_mod,
        Nat.mod_eq_of_lt (beNat_lt bs), ih]
    rw [h1, h2]
    simp

/-- `binary.BigEndian.PutUint16`. -/
def be16 (v : UInt16) : Bytes := beBytes 2 v.toNat
/-- `binary.BigEndian.PutUint32`. -/
def be32 (v : UInt32) : Bytes := beBytes 4 v.toNat
/-- `binary.BigEndian.PutUint64`. -/
def be64 (v : UInt64) : Bytes := beBytes 8 v.toNat

/-- `binary.BigEndian.Uint16` on exactly two bytes. -/
def dec16 (b : Bytes) : UInt16 := UInt16.ofNat (beNat b)
def dec32 (b : Bytes) : UInt32 := UInt32.ofNat (beNat b)
def dec64 (b : Bytes) : UInt64 := UInt64.ofNat (beNat b)

@[simp] theorem be16_length (v) : (be16 v).length = 2 := by simp [be16]
@[simp] theorem be32_length (v) : (be32 v).length = 4 := by simp [be32]
@[simp] theorem be64_length (v) : (be64 v).length = 8 := by simp [be64]

@[simp] theorem dec16_be16 (v : UInt16) : dec16 (be16 v) = v := by
  apply UInt16.toNat.inj
  have := v.toNat_lt
  simp only [dec16, be16, beNat_beBytes, UInt16.toNat_ofNat']
  omega
@[simp] theorem dec32_be32 (v : UInt32) : dec32 (be32 v) = v := by
  apply UInt32.toNat.inj
  have := v.toNat_lt
  simp only [dec32, be32, beNat_beBytes, UInt32.toNat_ofNat']
  omega
@[simp] theorem dec64_be64 (v : UInt64) : dec64 (be64 v) = v := by
  apply UInt64.toNat.inj
  have := v.toNat_lt
  simp only [dec64, be64, beNat_beBytes, UInt64.toNat_ofNat']
  omega

theorem be16_dec16 (b : Bytes) (h : b.length = 2) : be16 (dec16 b) = b := by
  have h1 := beNat_lt b
  have h2 := beBytes_beNat b
  rw [h] at h1 h2
  simp only [be16, dec16, UInt16.toNat_ofNat']
  rw [Nat.mod_eq_of_lt (by omega), h2]
theorem be32_dec32 (b : Bytes) (h : b.length = 4) : be32 (dec32 b) = b := by
  have h1 := beNat_lt b
  have h2 := beBytes_beNat b
  rw [h] at h1 h2
  simp only [be32, dec32, UInt32.toNat_ofNat']
  rw [Nat.mod_eq_of_lt (by omega), h2]
theorem be64_dec64 (b : Bytes) (h : b.length = 8) : be64 (dec64 b) = b := by
  have h1 := beNat_lt b
  have h2 := beBytes_beNat b
  rw [h] at h1 h2
  simp only [be64, dec64, UInt64.toNat_ofNat']
  rw [Nat.mod_eq_of_lt (by omega), h2]

/-! ### Slices -/

/-- A Go byte slice: the visible bytes `data` (`len`) and the bytes `spare` that follow them in the
backing array (`cap = len + spare`). -/
structure Slice where
  data : Bytes
  spare : Bytes
  deriving DecidableEq, Repr

namespace Slice

def len (s : Slice) : Nat := s.data.length
def cap (s : Slice) : Nat := s.data.length + s.spare.length

/-- `make([]byte, n)`. -/
def make (n : Nat) : Slice := ⟨List.replicate n 0, []⟩

/-- `s[i]` as a value. -/
def idx (s : Slice) (i : Nat) : Res UInt8 :=
  match s.data[i]? with
  | some x => .ok x
  | none => .panic

/-- `s[lo:hi]`: bounds are checked against the capacity, as in Go. -/
def sub (s : Slice) (lo hi : Nat) : Res Slice :=
  if lo ≤ hi ∧ hi ≤ s.cap then
    .ok ⟨((s.data ++ s.spare).take hi).drop lo, (s.data ++ s.spare).drop hi⟩
  else .panic

/-- `s[lo:]`: the high bound is `len s`. -/
def subFrom (s : Slice) (lo : Nat) : Res Slice := s.sub lo s.len

/-- `s[i] = v`. -/
def set (s : Slice) (i : Nat) (v : UInt8) : Res Slice :=
  if i < s.data.length then .ok ⟨s.data.set i v, s.spare⟩ else .panic

/-- Overwrite the backing array from position `lo` with `bs`. -/
def overwrite (s : Slice) (lo : Nat) (bs : Bytes) : Slice :=
  let all := s.data ++ s.spare
  let all' := all.take lo ++ bs ++ all.drop (lo + bs.length)
  ⟨all'.take s.data.length, all'.drop s.data.length⟩

/-- `copy(s[lo:hi], bs)`: slicing may panic; copies the shorter of the two lengths. -/
def copyAt (s : Slice) (lo hi : Nat) (bs : Bytes) : Res Slice :=
  if lo ≤ hi ∧ hi ≤ s.cap then .ok (s.overwrite lo (bs.take (hi - lo))) else .panic

/-- `binary.BigEndian.PutUintN(s[lo:hi], v)`, where `bs` are the bytes of `v`: panics if the
sub-slice is shorter than the integer. -/
def putAt (s : Slice) (lo hi : Nat) (bs : Bytes) : Res Slice :=
  if lo ≤ hi ∧ hi ≤ s.cap ∧ bs.length ≤ hi - lo then .ok (s.overwrite lo bs) else .panic

end Slice

/-- `b[lo:hi]` on a slice without spare capacity. A function that never panics under this reading
never looks at bytes behind its argument. -/
def slice (b : Bytes) (lo hi : Nat) : Res Bytes :=
  if lo ≤ hi ∧ hi ≤ b.length then .ok ((b.take hi).drop lo) else .panic

/-- `b[i]`. -/
def index (b : Bytes) (i : Nat) : Res UInt8 :=
  match b[i]? with
  | some x => .ok x
  | none => .panic

end Pfcp
