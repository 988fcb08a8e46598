/-
The validator of Apply Action elements (C58).
-/
import Verif.Flag.Props
import Verif.Ctor.Props

namespace Pfcp

/-- The flag functions called in the order given; how many of them are true, /repo/ie/apply-action.go:56-62. -/
def countFlags (g : IEType → Bool) (mem : IE → Bytes) (i : IE) : List Flag → Res Nat
  | [] => .ok 0
  | f :: fs => f.call g mem i >>= fun v => countFlags g mem i fs >>= fun n => .ok (if v then n + 1 else n)

/-- The Go expression `f1() || f2() || ...`: the later functions are called only if the earlier ones are false. -/
def anyFlag (g : IEType → Bool) (mem : IE → Bytes) (i : IE) : List Flag → Res Bool
  | [] => .ok false
  | f :: fs => f.call g mem i >>= fun v => if v then .ok true else anyFlag g mem i fs

/-- The Go statement `if (set...) && !(needed...) { return ErrMalformed }`, followed by the rest. -/
def requireFlags (g : IEType → Bool) (mem : IE → Bytes) (i : IE) (set needed : List Flag) (rest : Res Unit) : Res Unit :=
  anyFlag g mem i set >>= fun s =>
    if s then anyFlag g mem i needed >>= fun n => if n then rest else .err .malformed
    else rest

/-- `IE.ValidateApplyAction`, /repo/ie/apply-action.go:51-90. -/
def validateApplyAction (g : IEType → Bool) (mem : IE → Bytes) (i : IE) : Res Unit :=
  if i.typ ≠ T.ApplyAction then .err (.invalidTypeError i.typ)
  else countFlags g mem i [.HasDROP, .HasFORW, .HasBUFF, .HasIPMA, .HasIPMD] >>= fun n =>
    if n ≠ 1 then .err .malformed
    else
      requireFlags g mem i [.HasNOCP, .HasBDPN] [.HasBUFF] <|
      requireFlags g mem i [.HasDUPL] [.HasDROP, .HasFORW, .HasBUFF, .HasNOCP] <|
      requireFlags g mem i [.HasDFRT] [.HasFORW] <|
      requireFlags g mem i [.HasDDPN] [.HasDROP, .HasBUFF] <|
      .ok ()

/-- Bit `n + 1` of octet `5 + k` of an element with this payload; octets that are not sent count as zero. -/
def actionBit (p : Bytes) (k n : Nat) : Bool :=
  match p[k]? with
  | some o => o.toNat.testBit n
  | none => false

/-- 3GPP TS 29.244, section 8.2.26, with the bits by position: octet 5 has DROP, FORW, BUFF, NOCP, DUPL, IPMA, IPMD and
DFRT from bit 1 to bit 8, octet 6 has EDRT, BDPN, DDPN, FSSM and MBSU. One and only one of DROP, FORW, BUFF, IPMA and IPMD
is set; NOCP and BDPN need BUFF; DUPL needs DROP, FORW, BUFF or NOCP; DFRT needs FORW; DDPN needs DROP or BUFF. -/
structure ActionOK (p : Bytes) : Prop where
  one : ∃ n ∈ [0, 1, 2, 5, 6], actionBit p 0 n = true ∧ ∀ m ∈ [0, 1, 2, 5, 6], actionBit p 0 m = true → m = n
  nocp : actionBit p 0 3 = true → actionBit p 0 2 = true
  bdpn : actionBit p 1 1 = true → actionBit p 0 2 = true
  dupl : actionBit p 0 4 = true →
    actionBit p 0 0 = true ∨ actionBit p 0 1 = true ∨ actionBit p 0 2 = true ∨ actionBit p 0 3 = true
  dfrt : actionBit p 0 7 = true → actionBit p 0 1 = true
  ddpn : actionBit p 1 2 = true → actionBit p 0 0 = true ∨ actionBit p 0 2 = true

theorem action_flag (g : IEType → Bool) (mem : IE → Bytes) (i : IE) (ht : i.typ = T.ApplyAction) (hg : g T.ApplyAction = false)
    (k n : Nat) (f : Flag) (hn : n < 8) (hf : flagAt T.ApplyAction k n = some f) (hx : f ≠ .HasMAC) :
    f.call g mem i = .ok (actionBit i.payload k n) := by
  unfold actionBit
  by_cases hk : k < i.payload.length
  · rw [C30_layout_partial g mem T.ApplyAction k n f hn hf (by decide +kernel) i ht hg hk
      (by have : minOctets T.ApplyAction ≤ 1 := by decide +kernel
          omega), List.getElem?_eq_getElem hk]
  · rw [C30_short_partial g mem T.ApplyAction k n f hn hf hx i ht (.inl (by omega)), List.getElem?_eq_none (by omega)]

/-- The validator accepts exactly the elements that satisfy the specification, and reports the others as malformed. -/
theorem C58_exact (g : IEType → Bool) (mem : IE → Bytes) (i : IE) (ht : i.typ = T.ApplyAction) (hg : g T.ApplyAction = false) :
    (ActionOK i.payload ∧ validateApplyAction g mem i = .ok ()) ∨
    (¬ ActionOK i.payload ∧ validateApplyAction g mem i = .err .malformed) := by
  have e (k n : Nat) (f : Flag) (hn : n < 8) (hf : flagAt T.ApplyAction k n = some f) (hx : f ≠ .HasMAC) :=
    action_flag g mem i ht hg k n f hn hf hx
  have hiff : ActionOK i.payload ↔
      ((∃ n ∈ [0, 1, 2, 5, 6], actionBit i.payload 0 n = true ∧
        ∀ m ∈ [0, 1, 2, 5, 6], actionBit i.payload 0 m = true → m = n) ∧
      (actionBit i.payload 0 3 = true → actionBit i.payload 0 2 = true) ∧
      (actionBit i.payload 1 1 = true → actionBit i.payload 0 2 = true) ∧
      (actionBit i.payload 0 4 = true → actionBit i.payload 0 0 = true ∨ actionBit i.payload 0 1 = true ∨
        actionBit i.payload 0 2 = true ∨ actionBit i.payload 0 3 = true) ∧
      (actionBit i.payload 0 7 = true → actionBit i.payload 0 1 = true) ∧
      (actionBit i.payload 1 2 = true → actionBit i.payload 0 0 = true ∨ actionBit i.payload 0 2 = true)) :=
    ⟨fun ⟨a, b, c, d, e, f⟩ => ⟨a, b, c, d, e, f⟩, fun ⟨a, b, c, d, e, f⟩ => ⟨a, b, c, d, e, f⟩⟩
  rw [hiff]
  unfold validateApplyAction
  rw [if_neg (by simp [ht])]
  simp only [countFlags, requireFlags, anyFlag, e 0 0 .HasDROP (by decide) (by decide +kernel) (by decide),
    e 0 1 .HasFORW (by decide) (by decide +kernel) (by decide), e 0 2 .HasBUFF (by decide) (by decide +kernel) (by decide),
    e 0 3 .HasNOCP (by decide) (by decide +kernel) (by decide), e 0 4 .HasDUPL (by decide) (by decide +kernel) (by decide),
    e 0 5 .HasIPMA (by decide) (by decide +kernel) (by decide), e 0 6 .HasIPMD (by decide) (by decide +kernel) (by decide),
    e 0 7 .HasDFRT (by decide) (by decide +kernel) (by decide), e 1 1 .HasBDPN (by decide) (by decide +kernel) (by decide),
    e 1 2 .HasDDPN (by decide) (by decide +kernel) (by decide), Res.ok_bind, List.mem_cons, List.not_mem_nil, or_false,
    forall_eq_or_imp, forall_eq, exists_eq_or_imp, exists_eq_left]
  generalize actionBit i.payload 0 0 = a
  generalize actionBit i.payload 0 1 = b
  generalize actionBit i.payload 0 2 = c
  generalize actionBit i.payload 0 3 = d
  generalize actionBit i.payload 0 4 = u
  generalize actionBit i.payload 0 5 = v
  generalize actionBit i.payload 0 6 = w
  generalize actionBit i.payload 0 7 = x
  generalize actionBit i.payload 1 1 = y
  generalize actionBit i.payload 1 2 = z
  clear e hiff
  cases a <;> cases b <;> cases c <;> cases v <;> cases w <;> simp <;> cases d <;> cases u <;> cases x <;> cases y <;> cases z <;> simp

/-- Other elements are reported as such, grouped ones that contain an Apply Action included. -/
theorem C58_foreign (g : IEType → Bool) (mem : IE → Bytes) (i : IE) (ht : i.typ ≠ T.ApplyAction) :
    validateApplyAction g mem i = .err (.invalidTypeError i.typ) := if_pos ht

/-- Octets given to `NewApplyAction` (at least one) are judged the same before and after the wire. -/
theorem C58_wire (g : IEType → Bool) (mem : IE → Bytes) (f : SecondsConv) (v rest : Bytes) (hg : g T.ApplyAction = false)
    (hv : v.length ≤ 65535) (h1 : 1 ≤ v.length) :
    ∃ i b, IECtor.NewApplyAction.build f (.bytes v) = some i ∧ i.marshal g = .ok b ∧ parse g (b ++ rest) = .ok i ∧
      (validateApplyAction g mem i = .ok () ↔ ActionOK v) := by
  obtain ⟨i, b, e1, e2, e3, -⟩ := C29_octets g mem f .NewApplyAction v rest (by decide) hg hv (by rw [if_neg (by decide)]; exact h1)
  refine ⟨i, b, e1, e2, e3, ?_⟩
  have hi : i = IE.new T.ApplyAction v := by
    have : IECtor.NewApplyAction.build f (.bytes v) = some (IE.new T.ApplyAction v) := rfl
    rw [this] at e1
    cases e1
    rfl
  subst hi
  rcases C58_exact g mem (IE.new T.ApplyAction v) rfl hg with ⟨h, h'⟩ | ⟨h, h'⟩
  · rw [h']
    exact ⟨fun _ => h, fun _ => rfl⟩
  · rw [h']
    exact ⟨fun h => (by cases h), fun h'' => absurd h'' h⟩

/-- Both outcomes occur: forward; forward and drop. -/
example : ActionOK [2] ∧ ¬ ActionOK [3] := by
  constructor
  · constructor <;> decide
  · rintro ⟨⟨n, -, -, h⟩, -⟩
    have h0 := h 0 (by decide) (by decide)
    have h1 := h 1 (by decide) (by decide)
    omega

end Pfcp
