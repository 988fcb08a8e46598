/-
The value accessors of /repo/ie as an interpreter of the table in `Verif/Acc/Table.lean`.

All of them have one of two shapes (compare /repo/ie/far-id.go and /repo/ie/create-far.go):

    func (i *IE) X() (T, error) {                     func (i *IE) X() (T, error) {
        if len(i.Payload) < n { return EOF }              if i.Type != A { return InvalidTypeError }
        switch i.Type {                                   return ...
        case A: return ...                            }
        case B: ies, err := i.B()
                if err != nil { return err }
                for _, x := range ies {
                    if x.Type == A { return x.X() }
                }
                return ErrIENotFound
        default: return InvalidTypeError
        }
    }
-/
import Verif.Acc.Table

namespace Pfcp

/-- The loop over the children, for instance /repo/ie/far-id.go:23-27: the first child with a listed type, and the
accessor to call on it. -/
def findSub (subs : List (IEType × Acc)) : List IE → Option (IE × Acc)
  | [] => none
  | x :: xs =>
    match subs.lookup x.typ with
    | some b => some (x, b)
    | none => findSub subs xs

/-- One call of an accessor. `mem` gives the bytes that follow the payload of an element in memory. The first argument
is fuel; `none` means that it ran out. A container accessor that returns something other than elements cannot occur in
Go (`via_ies` shows that the table has none); it counts as a panic. -/
def Acc.run (g : IEType → Bool) (mem : IE → Bytes) : Nat → Acc → IE → Option (Res Val)
  | 0, _, _ => none
  | n + 1, a, i =>
    if i.payload.length < a.table.pre then some (.err .unexpectedEOF)
    else
      match a.table.cases.lookup i.typ with
      | none => some (.err (.invalidTypeError i.typ))
      | some (.leaf l) => some (l.run g i (mem i))
      | some (.descend via subs) =>
        match Acc.run g mem n via i with
        | none => none
        | some (.err e) => some (.err e)
        | some (.ok (.ies cs)) =>
          match findSub subs cs with
          | none => some (.err .ieNotFound)
          | some (x, b) => Acc.run g mem n b x
        | some (.ok _) => some .panic
        | some .panic => some .panic

/-- A call with enough fuel (`run_total`). -/
def Acc.call (g : IEType → Bool) (mem : IE → Bytes) (a : Acc) (i : IE) : Res Val :=
  match Acc.run g mem (i.payload.length + 2) a i with
  | some r => r
  | none => .panic

end Pfcp
