import Verif.Bytes

/-!
# The event stream of the example server (`examples/evtgen.go`, `examples/cmd.go:103-130`)

One goroutine produces an event a second into a ring of `cap` places; for every connection to `/sse`
a goroutine takes events out and sends them to the connection.  All share the two indices.  Every load or
store of an index and every access to the ring is a step of its own; goroutines interleave
arbitrarily.  An event is represented by the number it carries (`Id`, and `message <Id>` as data), 0 being
the zero value of an unused place.  Tearing of the unsynchronised store and load of a place is not
modelled, nor is an overflow of the write index (one event a second).
-/

namespace Gofre.Events

/-- The number a text of an optional sign and at least one digit stands for. -/
def signed : Str → Option Int
  | 45 :: ds => match parseDigits ds with
    | some n => some (-(n : Int))
    | none => none
  | 43 :: ds => match parseDigits ds with
    | some n => some (n : Int)
    | none => none
  | ds => match parseDigits ds with
    | some n => some (n : Int)
    | none => none

/-- `strconv.Atoi` with 64-bit integers: numbers out of range are refused. -/
def atoi (s : Str) : Option Int :=
  match signed s with
  | some n => if -9223372036854775808 ≤ n ∧ n ≤ 9223372036854775807 then some n else none
  | none => none

/-- `atomic.AddInt64(&x, 1)`. -/
def inc (x : Int) : Int := if x = 9223372036854775807 then -9223372036854775808 else x + 1

/-- Where a connection's goroutine is inside `Next` (`examples/evtgen.go:23-34`): outside, after the load of the read index, after the
comparison, after the load of the event. -/
inductive Pc
  | out
  | loaded (ri : Int)
  | below (ri : Int)
  | holds (e : Nat)
  deriving DecidableEq, Repr

/-- `EventGenerator` (`examples/evtgen.go:11-15`) as `NewEventGenerator` (`examples/evtgen.go:40-65`) makes it, whether the producer stands between its two steps, the goroutines, what each
connection was sent (oldest first), and whether the process has ended. -/
structure State where
  readIndex : Int := 0
  writeIndex : Nat := 0
  storing : Bool := false
  list : Nat → Nat := fun _ => 0
  pc : Nat → Pc := fun _ => .out
  sent : List (Nat × Nat) := []
  crashed : Bool := false

/-- The steps of the process. -/
inductive Step
  /-- `l.list[i] = evt` (`examples/evtgen.go:18-19`, `:53-59`); the number of the message is one more than the number of earlier ones. -/
  | store
  /-- `atomic.AddInt64(&l.writeIndex, 1)` (`examples/evtgen.go:20`). -/
  | publish
  /-- A connection begins with the given `Last-Event-Id` header (`examples/cmd.go:106-109`, `examples/evtgen.go:36-38`). -/
  | connect (c : Nat) (lastEventId : Str)
  /-- `ri := atomic.LoadInt64(&l.readIndex)` (`examples/evtgen.go:24`) by the goroutine of connection `c`. -/
  | load (c : Nat)
  /-- The load of the write index and the comparison (`examples/evtgen.go:25-28`). -/
  | compare (c : Nat)
  /-- `evt := l.list[ri % cap]` (`examples/evtgen.go:30-31`). -/
  | fetch (c : Nat)
  /-- `atomic.AddInt64(&l.readIndex, 1)` and the sending of the event (`examples/evtgen.go:32-33`, `examples/cmd.go:120-122`). -/
  | advance (c : Nat)
  deriving DecidableEq, Repr

/-- The goroutine of `c` goes to `p`. -/
def State.goto (s : State) (c : Nat) (p : Pc) : State := { s with pc := fun d => if d = c then p else s.pc d }

/-- One step; a step that is not due does nothing.  A panic in one of these goroutines is not recovered and ends the process. -/
def step (cap : Nat) (s : State) (t : Step) : State :=
  if s.crashed then s else
  match t with
  | .store =>
    if s.storing then s
    else if cap = 0 then { s with crashed := true }
    else { s with storing := true, list := fun i => if i = s.writeIndex % cap then s.writeIndex + 1 else s.list i }
  | .publish => if s.storing then { s with storing := false, writeIndex := s.writeIndex + 1 } else s
  | .connect _ id =>
    match atoi id with
    | some n => { s with readIndex := n }
    | none => s
  | .load c => if s.pc c = .out then s.goto c (.loaded s.readIndex) else s
  | .compare c =>
    match s.pc c with
    | .loaded ri => if (s.writeIndex : Int) ≤ ri then s.goto c .out else s.goto c (.below ri)
    | _ => s
  | .fetch c =>
    match s.pc c with
    | .below ri => if ri.tmod cap < 0 then { s with crashed := true } else s.goto c (.holds (s.list (ri.tmod cap).toNat))
    | _ => s
  | .advance c =>
    match s.pc c with
    | .holds e => { s.goto c .out with readIndex := inc s.readIndex, sent := s.sent ++ [(c, e)] }
    | _ => s

/-- A schedule from a state. -/
def run (cap : Nat) (s : State) (ts : List Step) : State := ts.foldl (step cap) s

end Gofre.Events
