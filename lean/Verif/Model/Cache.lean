import Verif.Model.Handler

/-!
# In-memory cache (`cache/cache.go`)

Times and durations are integers (nanoseconds); overflow of `time.Time.Add` is not modelled.
-/

namespace Gofre.Cache

/-- `InMemory.cache` (`cache/cache.go:16-18`): key to expiry time. -/
abbrev Cache := Map Int

/-- `NewInMemory` (`cache/cache.go:20-22`). -/
def empty : Cache := []

/-- `Add` at time `now` (`cache/cache.go:24-27`). -/
def add (c : Cache) (now : Int) (k : Str) (d : Int) : Cache := Map.set c k (now + d)

/-- `Remove` (`cache/cache.go:29-31`). -/
def remove (c : Cache) (k : Str) : Cache := Map.erase c k

/-- `Contains` at time `now` (`cache/cache.go:33-36`). -/
def contains (c : Cache) (now : Int) (k : Str) : Bool :=
  match Map.get? c k with
  | some t => decide (now < t)
  | none => false

/-- A mutating call together with the time at which it runs. -/
inductive Op
  | add (now : Int) (k : Str) (d : Int)
  | remove (k : Str)
  deriving DecidableEq, Repr

/-- One call. -/
def step (c : Cache) : Op → Cache
  | .add now k d => add c now k d
  | .remove k => remove c k

/-- A history of calls, oldest first. -/
def run (c : Cache) (ops : List Op) : Cache := ops.foldl step c

end Gofre.Cache
