/-
Concurrent model of the logger, /repo/internal/logger/logger.go: any number of goroutines, each running any sequence of
`SetLogger`, `EnableLogging`, `DisableLogging` and `Logf` calls, interleaved one lock operation or access to the
package variable at a time. The functions of /repo/logger.go:18-38 only call these. `Logf` is called by `message.Parse`
on a message of unknown type (/repo/message/message.go:114) and by `newGroupedIE` (/repo/ie/ie.go:676).

Simplified: `*log.Logger` values are known by their identity and by whether their output was discarded; what is printed
is the list of (logger, message) pairs, messages being numbers. `sync.Mutex` is modelled after its documentation: `Lock`
waits while the mutex is locked, by whomever; `Unlock` unlocks it.
-/
namespace Pfcp
namespace Log

/-- A `*log.Logger`: one made by the package (`log.New`, /repo/internal/logger/logger.go:18 and 65), or a user's. -/
inductive Logger where
  | made (n : Nat)
  | user (n : Nat)
  deriving DecidableEq

/-- The package variable `logger` (:18), the number of loggers the package made, the loggers whose output was discarded,
and everything printed so far. -/
structure Data where
  cur : Logger
  next : Nat
  silenced : List Logger
  out : List (Logger × Nat)

/-- The statements the functions are made of. The argument of `store` is nil for a nil pointer. -/
inductive Instr where
  | lock
  | unlock
  | store (l : Option Nat)
  | discard
  | print (m : Nat)

/-- What a statement does to the data. `store`: :64-71, a nil logger is replaced by a new one. `discard`:
`logger.SetOutput(io.Discard)`, :60. `print`: `logger.Printf`, :78. -/
def Instr.effect : Instr → Data → Data
  | .store none, d => { d with cur := .made d.next, next := d.next + 1 }
  | .store (some n), d => { d with cur := .user n }
  | .discard, d => { d with silenced := d.cur :: d.silenced }
  | .print m, d => if d.cur ∈ d.silenced then d else { d with out := d.out ++ [(d.cur, m)] }
  | .lock, d => d
  | .unlock, d => d

/-- Whether the statement reads or writes the package variable `logger`; the second component tells if it writes. -/
def Instr.access : Instr → Option Bool
  | .store _ => some true
  | .discard => some false
  | .print _ => some false
  | .lock => none
  | .unlock => none

/-- A call. `none` is a nil argument. -/
inductive Op where
  | set (l : Option Nat)
  | enable (l : Option Nat)
  | disable
  | logf (m : Nat)
  deriving DecidableEq

/-- `setLogger`, /repo/internal/logger/logger.go:63-72. -/
def setLogger (l : Option Nat) : List Instr := [.lock, .store l, .unlock]

/-- The statements of a call in the order in which they run, deferred ones last. -/
def Op.body : Op → List Instr
  /- `SetLogger`, /repo/internal/logger/logger.go:29-35 (the remark printed for nil uses another logger). -/
  | .set l => setLogger l
  /- `EnableLogging`, /repo/internal/logger/logger.go:45-50. -/
  | .enable l => [.lock] ++ setLogger l ++ [.unlock]
  /- `DisableLogging`, /repo/internal/logger/logger.go:57-62. -/
  | .disable => [.lock, .discard, .unlock]
  /- `Logf`, /repo/internal/logger/logger.go:74-79. -/
  | .logf m => [.lock, .print m, .unlock]

/-- A goroutine: the call it is in, with the statements still to run, and the calls still to make. -/
structure Thread where
  cur : Option (Op × List Instr)
  todo : List Op

/-- Shared state. `finished` is a ghost: the calls that returned, with the number of the goroutine. -/
structure Shared where
  held : Bool
  data : Data
  finished : List (Nat × Op)

structure State where
  threads : List Thread
  sh : Shared

/-- One step of goroutine number `k`. -/
inductive Local (k : Nat) : Thread → Shared → Thread → Shared → Prop
  | begin (op ops s) : Local k ⟨none, op :: ops⟩ s ⟨some (op, op.body), ops⟩ s
  | lock (op c ops s) : s.held = false →
      Local k ⟨some (op, .lock :: c), ops⟩ s ⟨some (op, c), ops⟩ { s with held := true }
  | unlock (op i c ops s) :
      Local k ⟨some (op, .unlock :: i :: c), ops⟩ s ⟨some (op, i :: c), ops⟩ { s with held := false }
  | return (op ops s) :
      Local k ⟨some (op, [.unlock]), ops⟩ s ⟨none, ops⟩ { s with held := false, finished := s.finished ++ [(k, op)] }
  | act (i op c ops s) : i.access.isSome →
      Local k ⟨some (op, i :: c), ops⟩ s ⟨some (op, c), ops⟩ { s with data := i.effect s.data }

/-- One step of the program: some goroutine moves. -/
inductive Step : State → State → Prop
  | mk (xs ys t t' s s') : Local xs.length t s t' s' → Step ⟨xs ++ t :: ys, s⟩ ⟨xs ++ t' :: ys, s'⟩

/-- The package at program start: one logger, made at :18, printing. -/
def init : Data := ⟨.made 0, 1, [], []⟩

def start (progs : List (List Op)) : State := ⟨progs.map (⟨none, ·⟩), ⟨false, init, []⟩⟩

/-- `s'` is reached from `s` by any number of steps. -/
inductive Steps : State → State → Prop
  | refl (s) : Steps s s
  | tail {s s' s''} : Steps s s' → Step s' s'' → Steps s s''

/-- Reachable from the start of a program whose goroutines make the given calls. -/
def Reach (progs : List (List Op)) (s : State) : Prop := Steps (start progs) s

end Log
end Pfcp
