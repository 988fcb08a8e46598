/-
The flag functions of /repo/ie as an interpreter of the table in `Verif/Flag/Table.lean`.
-/
import Verif.Flag.Table
import Verif.Acc.Model

namespace Pfcp
open Fields

/-- The bit tests of /repo/ie/misc.go:7-37, by number. -/
def hasBit : Nat → UInt8 → Bool
  | 0 => has1stBit
  | 1 => has2ndBit
  | 2 => has3rdBit
  | 3 => has4thBit
  | 4 => has5thBit
  | 5 => has6thBit
  | 6 => has7thBit
  | 7 => has8thBit
  | _ => fun _ => false

/-- The test of an octet. -/
def Test.eval : Test → UInt8 → Bool
  | .bit n, o => hasBit n o
  | .any ns, o => ns.any (fun n => hasBit n o)
  | .bitNot n m, o => hasBit n o && !hasBit m o
  | .notBit n, o => !hasBit n o

/-- The value of a rule. An accessor that returns a value of another type cannot occur in Go (`flag_sources` shows that the
table has none); it counts as a panic. -/
def FlagSrc.run (g : IEType → Bool) (mem : IE → Bytes) (i : IE) : FlagSrc → Res Bool
  | .payload min k t =>
    if i.payload.length < min then .ok false
    else Slice.idx ⟨i.payload, mem i⟩ k >>= fun o => .ok (t.eval o)
  | .u8 a t =>
    match a.call g mem i with
    | .ok (.u8 v) => .ok (t.eval v)
    | .ok _ => .panic
    | .err _ => .ok false
    | .panic => .panic
  | .bytes a min k t =>
    match a.call g mem i with
    | .ok (.bytes v) => if v.length < min then .ok false else Slice.idx ⟨v, mem i⟩ k >>= fun o => .ok (t.eval o)
    | .ok _ => .panic
    | .err _ => .ok false
    | .panic => .panic
  | .outer min high t =>
    if i.payload.length < min then .ok false
    else
      match Acc.OuterHeaderCreation.call g mem i with
      | .ok (.outerHeaderCreation v) =>
        .ok (t.eval (if high then OuterHeaderCreation.hiOctet v.desc else OuterHeaderCreation.loOctet v.desc))
      | .ok _ => .panic
      | .err _ => .ok false
      | .panic => .panic
  | .fseid t =>
    match Acc.FSEID.call g mem i with
    | .ok (.fseid v) => .ok (t.eval v.flags)
    | .ok _ => .panic
    | .err _ => .ok false
    | .panic => .panic
  | .fteid t =>
    match Acc.FTEID.call g mem i with
    | .ok (.fteid v) => .ok (t.eval v.flags)
    | .ok _ => .panic
    | .err _ => .ok false
    | .panic => .panic

/-- A `case` lists the type; a function without a `switch` has one rule for all types. -/
def ruleFor (t : IEType) (r : Option (List IEType) × FlagSrc) : Bool :=
  match r.1 with
  | none => true
  | some ts => ts.contains t

/-- The rule for a type: the first `case` that lists it. -/
def Flag.rule (f : Flag) (t : IEType) : Option FlagSrc := (f.table.rules.find? (ruleFor t)).map (·.2)

/-- A call of a flag function. -/
def Flag.call (g : IEType → Bool) (mem : IE → Bytes) (f : Flag) (i : IE) : Res Bool :=
  if i.payload.length < f.table.pre then .ok false
  else
    match f.rule i.typ with
    | none => .ok false
    | some s => s.run g mem i

end Pfcp
