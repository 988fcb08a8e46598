/-
Model of the grouped-type configuration, /repo/ie/ie_grouped.go:8-133.
-/
import Verif.IE.Model
import Verif.IE.Lemmas

namespace Pfcp
namespace Config

/-- A value of the package variable `isGroupedFun`: the initial closure (/repo/ie/ie_grouped.go:99-104),
a function installed by the user (modelled as a pure total function), or nil. -/
inductive Fun where
  | initial
  | user (f : IEType → Bool)
  | nil

/-- The two package variables: keys of `defaultGroupedIEMap` (/repo/ie/ie_grouped.go:10-98; the values are
all `true` and never read), and `isGroupedFun` (99-104). -/
structure State where
  keys : List IEType
  fn : Fun

/-- State at program start, /repo/ie/ie_grouped.go:8-105. -/
def init : State := ⟨defaultGroupedTypes, .initial⟩

/-- A configuration call. -/
inductive Call where
  | add (ts : List IEType)
  | set (f : Fun)

/-- `AddGroupedIEType`, /repo/ie/ie_grouped.go:117-123 (an insertion of a key that is there is the
identity on a map). -/
def addGrouped (s : State) (ts : List IEType) : State :=
  { s with keys := ts.foldl (fun ks t => if t ∈ ks then ks else ks ++ [t]) s.keys }

/-- `SetIsGroupedFun`, /repo/ie/ie_grouped.go:108-112. `Fun.initial` stands for no value a user can
pass (the variable is unexported). -/
def setFun (s : State) (f : Fun) : State := { s with fn := f }

/-- One call. -/
def step (s : State) : Call → State
  | .add ts => addGrouped s ts
  | .set f => setFun s f

/-- A history of calls. -/
def run (s : State) (cs : List Call) : State := cs.foldl step s

/-- `IE.IsGrouped` on the type, /repo/ie/ie_grouped.go:131-133; calling a nil function panics. -/
def isGrouped (s : State) (t : IEType) : Res Bool :=
  match s.fn with
  | .initial => .ok (decide (t ∈ s.keys))
  | .user f => .ok (f t)
  | .nil => .panic

end Config
end Pfcp
