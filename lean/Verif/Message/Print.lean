/- Property C90: what a printed header says. -/
import Verif.Message.HeaderProps

namespace Pfcp

/-! ### What `fmt` writes

Trusted, like the rest of the standard library: the verbs `%d`, `%t`, `%x` of package fmt, as used in /repo/message/header.go:208. -/

/-- The digits that `%d` and `%x` use. -/
def digitChar (d : Nat) : Char := Char.ofNat (if d < 10 then 48 + d else 87 + d)

/-- The digits of a number, the first one not 0 unless it is the only one: `%d` (base 10), and `%x` (base 16) of a number. -/
def digits (base n : Nat) : List Char :=
  if _h : n < base ∨ base < 2 then [digitChar n] else digits base (n / base) ++ [digitChar (n % base)]
termination_by n
decreasing_by exact Nat.div_lt_self (by omega) (by omega)

/-- `%t`. -/
def boolChars : Bool → List Char
  | true => ['t', 'r', 'u', 'e']
  | false => ['f', 'a', 'l', 's', 'e']

/-- `%#016x` of a number: at least sixteen digits, after `0x`. -/
def hex16 (n : Nat) : List Char := '0' :: 'x' :: (List.replicate (16 - (digits 16 n).length) '0' ++ digits 16 n)

/-- `%#x` of a byte slice: two digits each after `0x`, and nothing at all for no octets. -/
def hexBytes : Bytes → List Char
  | [] => []
  | b :: bs => '0' :: 'x' :: (b :: bs).flatMap fun o => [digitChar (o.toNat / 16), digitChar (o.toNat % 16)]

namespace Header

/-- `Header.String`, /repo/message/header.go:207-218, as characters. -/
def chars (h : Header) : List Char :=
  "{Version: ".toList ++ (digits 10 h.version ++ (", Flags: {FO: ".toList ++ (boolChars h.hasFO ++ (", MP: ".toList ++
  (boolChars h.hasMP ++ (", S: ".toList ++ (boolChars h.hasSEID ++ ("}, Type: ".toList ++ (digits 10 h.typ.toNat ++
  (", Length: ".toList ++ (digits 10 h.length.toNat ++ (", SEID: ".toList ++ (hex16 h.seid.toNat ++
  (", SequenceNumber: ".toList ++ ('0' :: 'x' :: digits 16 h.seq.toNat ++ (", MessagePriority: ".toList ++
  (digits 10 h.pri.toNat ++ (", Payload: ".toList ++ (hexBytes h.payload ++ "}".toList)))))))))))))))))))

/-- `Header.String`, /repo/message/header.go:207-218. -/
def string (h : Header) : String := String.ofList h.chars

end Header

/-! ### Reading it back -/

/-- The value of a digit, and of digits. -/
def digitVal (c : Char) : Nat := if c.toNat < 97 then c.toNat - 48 else c.toNat - 87

def digitsVal (base : Nat) (l : List Char) : Nat := l.foldl (fun a c => base * a + digitVal c) 0

theorem digitVal_char : ∀ d, d < 16 → digitVal (digitChar d) = d := by decide +kernel

theorem digitsVal_digits (base : Nat) (h2 : 2 ≤ base) (h16 : base ≤ 16) (n : Nat) : digitsVal base (digits base n) = n := by
  induction n using Nat.strongRecOn with
  | _ n ih =>
    rw [digits]
    split
    · rename_i h
      have : n < 16 := by omega
      simp [digitsVal, digitVal_char n this]
    · rename_i h
      have hlt : n / base < n := Nat.div_lt_self (by omega) (by omega)
      have := ih _ hlt
      unfold digitsVal at this ⊢
      rw [List.foldl_append, this]
      simp only [List.foldl_cons, List.foldl_nil]
      rw [digitVal_char _ (by have := Nat.mod_lt n (show 0 < base by omega); omega)]
      exact Nat.div_add_mod n base

theorem digits_inj (base : Nat) (h2 : 2 ≤ base) (h16 : base ≤ 16) {n m : Nat} (h : digits base n = digits base m) : n = m := by
  rw [← digitsVal_digits base h2 h16 n, h, digitsVal_digits base h2 h16]

theorem digitsVal_zeros (base k : Nat) (l : List Char) : digitsVal base (List.replicate k '0' ++ l) = digitsVal base l := by
  unfold digitsVal
  rw [List.foldl_append]
  congr 1
  induction k with
  | zero => rfl
  | succ k ih =>
    rw [List.replicate_succ, List.foldl_cons]
    have : base * 0 + digitVal '0' = 0 := by rw [Nat.mul_zero]; decide
    rw [this]
    exact ih

theorem hex16_inj {n m : Nat} (h : hex16 n = hex16 m) : n = m := by
  simp only [hex16, List.cons.injEq, true_and] at h
  rw [← digitsVal_digits 16 (by decide) (by decide) n, ← digitsVal_zeros 16 (16 - (digits 16 n).length), h, digitsVal_zeros,
    digitsVal_digits 16 (by decide) (by decide)]

theorem octet_inj {a b : UInt8} (h1 : digitChar (a.toNat / 16) = digitChar (b.toNat / 16))
    (h2 : digitChar (a.toNat % 16) = digitChar (b.toNat % 16)) : a = b := by
  have ha := a.toNat_lt
  have hb := b.toNat_lt
  have e1 := congrArg digitVal h1
  have e2 := congrArg digitVal h2
  rw [digitVal_char _ (by omega), digitVal_char _ (by omega)] at e1 e2
  apply UInt8.toNat_inj.1
  omega

theorem flat_inj : ∀ {a b : Bytes}, (a.flatMap fun o => [digitChar (o.toNat / 16), digitChar (o.toNat % 16)]) =
    (b.flatMap fun o => [digitChar (o.toNat / 16), digitChar (o.toNat % 16)]) → a = b
  | [], [], _ => rfl
  | [], _ :: _, h => by simp at h
  | _ :: _, [], h => by simp at h
  | x :: a, y :: b, h => by
    simp only [List.flatMap_cons, List.cons_append, List.nil_append, List.cons.injEq] at h
    rw [octet_inj h.1 h.2.1, flat_inj h.2.2]

theorem hexBytes_inj {a b : Bytes} (h : hexBytes a = hexBytes b) : a = b := by
  cases a <;> cases b
  · rfl
  · cases h
  · cases h
  · simp only [hexBytes, List.cons.injEq, true_and] at h
    exact flat_inj h

/-! ### No stop inside the parts -/

/-- The characters that occur inside the parts. -/
def plain (c : Char) : Prop := c ≠ ',' ∧ c ≠ '}'

theorem plain_digitChar : ∀ d, d < 16 → plain (digitChar d) := by unfold plain; decide +kernel

theorem plain_digits (base n : Nat) (h2 : 2 ≤ base) (h16 : base ≤ 16) : ∀ c ∈ digits base n, plain c := by
  induction n using Nat.strongRecOn with
  | _ n ih =>
    rw [digits]
    split
    · intro c hc; rw [List.mem_singleton.1 hc]; exact plain_digitChar _ (by omega)
    · intro c hc
      rcases List.mem_append.1 hc with hc | hc
      · exact ih _ (Nat.div_lt_self (by omega) (by omega)) c hc
      · rw [List.mem_singleton.1 hc]
        exact plain_digitChar _ (by have := Nat.mod_lt n (show 0 < base by omega); omega)

theorem plain_dec (n : Nat) : ∀ c ∈ digits 10 n, plain c := plain_digits 10 n (by decide) (by decide)
theorem plain_hex (n : Nat) : ∀ c ∈ digits 16 n, plain c := plain_digits 16 n (by decide) (by decide)

theorem plain_zx {l : List Char} (h : ∀ c ∈ l, plain c) : ∀ c ∈ '0' :: 'x' :: l, plain c := by
  intro c hc
  rcases List.mem_cons.1 hc with rfl | hc
  · unfold plain; decide
  · rcases List.mem_cons.1 hc with rfl | hc
    · unfold plain; decide
    · exact h c hc

theorem plain_bool : ∀ b, ∀ c ∈ boolChars b, plain c := by unfold plain; decide

theorem plain_hex16 (n : Nat) : ∀ c ∈ hex16 n, plain c := by
  apply plain_zx
  intro c hc
  rcases List.mem_append.1 hc with hc | hc
  · rw [List.eq_of_mem_replicate hc]; unfold plain; decide
  · exact plain_hex _ c hc

theorem plain_hexBytes (b : Bytes) : ∀ c ∈ hexBytes b, plain c := by
  cases b with
  | nil => intro c hc; cases hc
  | cons x xs =>
    apply plain_zx
    intro c hc
    obtain ⟨o, _, ho⟩ := List.mem_flatMap.1 hc
    have := o.toNat_lt
    rcases List.mem_cons.1 ho with rfl | ho
    · exact plain_digitChar _ (by omega)
    · rw [List.mem_singleton.1 ho]; exact plain_digitChar _ (by omega)

/-- A part ends at the first stop. -/
theorem split_at {s : Char} (hs : s = ',' ∨ s = '}') : ∀ {a b r t : List Char}, (∀ c ∈ a, plain c) → (∀ c ∈ b, plain c) →
    a ++ s :: r = b ++ s :: t → a = b ∧ r = t
  | [], [], _, _, _, _, h => ⟨rfl, by simpa using h⟩
  | [], y :: b, _, _, _, hb, h => by
    have := hb y (List.mem_cons_self ..)
    simp only [List.nil_append, List.cons_append, List.cons.injEq] at h
    rw [← h.1] at this
    rcases hs with rfl | rfl
    · exact absurd rfl this.1
    · exact absurd rfl this.2
  | x :: a, [], _, _, ha, _, h => by
    have := ha x (List.mem_cons_self ..)
    simp only [List.nil_append, List.cons_append, List.cons.injEq] at h
    rw [h.1] at this
    rcases hs with rfl | rfl
    · exact absurd rfl this.1
    · exact absurd rfl this.2
  | x :: a, y :: b, _, _, ha, hb, h => by
    simp only [List.cons_append, List.cons.injEq] at h
    obtain ⟨e1, e2⟩ := split_at hs (fun c hc => ha c (List.mem_cons_of_mem _ hc)) (fun c hc => hb c (List.mem_cons_of_mem _ hc)) h.2
    exact ⟨by rw [h.1, e1], e2⟩

theorem boolChars_inj : ∀ {a b : Bool}, boolChars a = boolChars b → a = b := by decide

/-- A part and the text up to the next one can be taken off. -/
theorem take_part {s : Char} (hs : s = ',' ∨ s = '}') {a b p r t : List Char} (ha : ∀ c ∈ a, plain c) (hb : ∀ c ∈ b, plain c)
    (h : a ++ (s :: p ++ r) = b ++ (s :: p ++ t)) : a = b ∧ r = t := by
  obtain ⟨e1, e2⟩ := split_at hs ha hb h
  exact ⟨e1, List.append_cancel_left e2⟩

namespace Header

/-- C90, exactly: two headers print alike if and only if they are the same in everything but the five upper bits of the first octet. -/
theorem C90_exact (a b : Header) : a.string = b.string ↔
    (∀ i < 3, a.flags.toNat.testBit i = b.flags.toNat.testBit i) ∧
    a.typ = b.typ ∧ a.length = b.length ∧ a.seid = b.seid ∧ a.seq = b.seq ∧ a.pri = b.pri ∧ a.payload = b.payload := by
  have hbits : ∀ f : UInt8, has1stBit f = f.toNat.testBit 0 ∧ has2ndBit f = f.toNat.testBit 1 ∧ has3rdBit f = f.toNat.testBit 2 :=
    forall_byte (by decide +kernel)
  constructor
  · intro h
    have h := String.ofList_injective h
    unfold chars at h
    have h := List.append_cancel_left h
    obtain ⟨_, h⟩ := take_part (s := ',') (Or.inl rfl) (plain_dec _) (plain_dec _) h
    obtain ⟨h1, h⟩ := take_part (s := ',') (Or.inl rfl) (plain_bool _) (plain_bool _) h
    obtain ⟨h2, h⟩ := take_part (s := ',') (Or.inl rfl) (plain_bool _) (plain_bool _) h
    obtain ⟨h3, h⟩ := take_part (s := '}') (Or.inr rfl) (plain_bool _) (plain_bool _) h
    obtain ⟨h4, h⟩ := take_part (s := ',') (Or.inl rfl) (plain_dec _) (plain_dec _) h
    obtain ⟨h5, h⟩ := take_part (s := ',') (Or.inl rfl) (plain_dec _) (plain_dec _) h
    obtain ⟨h6, h⟩ := take_part (s := ',') (Or.inl rfl) (plain_hex16 _) (plain_hex16 _) h
    obtain ⟨h7, h⟩ := take_part (s := ',') (Or.inl rfl) (plain_zx (plain_hex _)) (plain_zx (plain_hex _)) h
    obtain ⟨h8, h⟩ := take_part (s := ',') (Or.inl rfl) (plain_dec _) (plain_dec _) h
    have h9 := List.append_cancel_right h
    simp only [List.cons.injEq, true_and] at h7
    refine ⟨?_, UInt8.toNat_inj.1 (digits_inj 10 (by decide) (by decide) h4), UInt16.toNat_inj.1 (digits_inj 10 (by decide) (by decide) h5),
      UInt64.toNat_inj.1 (hex16_inj h6), UInt32.toNat_inj.1 (digits_inj 16 (by decide) (by decide) h7),
      UInt8.toNat_inj.1 (digits_inj 10 (by decide) (by decide) h8), hexBytes_inj h9⟩
    have h1 := boolChars_inj h1
    have h2 := boolChars_inj h2
    have h3 := boolChars_inj h3
    unfold hasFO at h1; unfold hasMP at h2; unfold hasSEID at h3
    rw [(hbits _).2.2, (hbits _).2.2] at h1
    rw [(hbits _).2.1, (hbits _).2.1] at h2
    rw [(hbits _).1, (hbits _).1] at h3
    intro i hi
    match i, hi with
    | 0, _ => exact h3
    | 1, _ => exact h2
    | 2, _ => exact h1
  · rintro ⟨hf, h1, h2, h3, h4, h5, h6⟩
    have e1 : a.hasSEID = b.hasSEID := by unfold hasSEID; rw [(hbits _).1, (hbits _).1]; exact hf 0 (by decide)
    have e2 : a.hasMP = b.hasMP := by unfold hasMP; rw [(hbits _).2.1, (hbits _).2.1]; exact hf 1 (by decide)
    have e3 : a.hasFO = b.hasFO := by unfold hasFO; rw [(hbits _).2.2, (hbits _).2.2]; exact hf 2 (by decide)
    unfold string chars version
    rw [e1, e2, e3, h1, h2, h3, h4, h5, h6]

/-- C90 fails: every header prints like one of another version, so a peer that speaks another version looks in the log as if it spoke
version 1. -/
theorem C90_violated (a : Header) : ∃ b : Header, b.flags.toNat / 32 ≠ a.flags.toNat / 32 ∧ a ≠ b ∧ a.string = b.string := by
  refine ⟨{ a with flags := a.flags ^^^ 0x20 }, ?_, ?_, ?_⟩
  · generalize a.flags = f
    show (f ^^^ 0x20).toNat / 32 ≠ f.toNat / 32
    revert f
    exact forall_byte (by decide +kernel)
  · intro h
    have h := congrArg Header.flags h
    revert h
    generalize a.flags = f
    show f = f ^^^ 0x20 → False
    revert f
    exact forall_byte (by decide +kernel)
  · rw [C90_exact]
    refine ⟨?_, rfl, rfl, rfl, rfl, rfl, rfl⟩
    generalize a.flags = f
    show ∀ i < 3, f.toNat.testBit i = (f ^^^ 0x20).toNat.testBit i
    revert f
    exact forall_byte (by decide +kernel)

/-- C90, of headers of version 1 whose spare bits are 0, as the constructors make them: the printed form is theirs alone. -/
theorem C90_partial (a b : Header) (ha : a.flags.toNat / 8 = 4) (hb : b.flags.toNat / 8 = 4) (h : a.string = b.string) : a = b := by
  obtain ⟨hf, h1, h2, h3, h4, h5, h6⟩ := (C90_exact a b).1 h
  have hfl : a.flags = b.flags := by
    generalize a.flags = f at ha hf
    generalize b.flags = f' at hb hf
    apply UInt8.toNat_inj.1
    have k0 := hf 0 (by decide)
    have k1 := hf 1 (by decide)
    have k2 := hf 2 (by decide)
    simp only [Nat.testBit_eq_decide_div_mod_eq, decide_eq_decide] at k0 k1 k2
    have := f.toNat_lt
    have := f'.toNat_lt
    omega
  cases a; cases b
  simp_all

example : ({ flags := 0x21, typ := 50, length := 14, seid := 0xabc, seq := 0x1f, pri := 0, payload := [0x00, 0xff] } : Header).string =
    "{Version: 1, Flags: {FO: false, MP: false, S: true}, Type: 50, Length: 14, SEID: 0x0000000000000abc, SequenceNumber: 0x1f, MessagePriority: 0, Payload: 0x00ff}" := by
  decide +kernel
example : (Header.new 1 1 1 1 50 0xabc 31 0 [0, 255]).flags.toNat / 8 = 4 := by decide

end Header
end Pfcp
