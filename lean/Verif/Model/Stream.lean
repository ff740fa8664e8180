import Verif.Bytes

/-!
# An event stream and the goroutine behind it (`response/sse.go:70-104`, `examples/cmd.go:105-128`)

The goroutine of an event generator and the loop of `HttpSSEResponse.Write` meet at an unbuffered
channel.  Which events there are, and what they contain, is left out.
-/

namespace Gofre.Stream

/-- The goroutine of the generator (`examples/cmd.go:112-127`): at the `select`, at `ch <- evt`, or
ended, which closes the channel. -/
inductive Gen
  | selecting | sending | ended
  deriving DecidableEq

/-- The loop of `Write` (`response/sse.go:91-101`): waiting for an event of the channel, with an
event before the `select`, with an event in the `default` branch, or returned. -/
inductive Loop
  | receiving | holding | writing | returned
  deriving DecidableEq

/-- A connection: whether the context of the request is done, the goroutine, the loop, and how many
events were written. -/
structure Conn where
  done : Bool
  gen : Gen
  loop : Loop
  written : Nat
  deriving DecidableEq

/-- What can happen. -/
inductive Act
  /-- The client disconnects, or the server has finished the request: net/http cancels the context. -/
  | cancel
  /-- `case <-ctx.Done(): return` with the deferred `close(ch)` (`examples/cmd.go:115`, `:117-119`). -/
  | quit
  /-- A tick without event (`examples/cmd.go:120-121`). -/
  | idle
  /-- A tick with an event (`examples/cmd.go:120-121`). -/
  | take
  /-- An event is passed over the channel (`examples/cmd.go:122`, `response/sse.go:91`). -/
  | pass
  /-- The `select` of the loop (`response/sse.go:92-95`). -/
  | check
  /-- An event is written (`response/sse.go:96-99`). -/
  | write
  /-- The writing fails (`response/sse.go:96-98`). -/
  | fail
  /-- The channel is closed and the loop ends (`response/sse.go:91`, `:103`). -/
  | over
  deriving DecidableEq

/-- One action; `none` = it cannot happen now.  `careful` is about the generator: whether it waits
for the context also while it waits for its event to be taken; the one of the example does not
(`examples/cmd.go:122`). -/
def step (careful : Bool) (s : Conn) : Act → Option Conn
  | .cancel => some { s with done := true }
  | .quit => if s.done ∧ (s.gen = .selecting ∨ careful ∧ s.gen = .sending) then some { s with gen := .ended } else none
  | .idle => if s.gen = .selecting then some s else none
  | .take => if s.gen = .selecting then some { s with gen := .sending } else none
  | .pass => if s.gen = .sending ∧ s.loop = .receiving then some { s with gen := .selecting, loop := .holding } else none
  | .check => if s.loop = .holding then some { s with loop := if s.done then .returned else .writing } else none
  | .write => if s.loop = .writing then some { s with loop := .receiving, written := s.written + 1 } else none
  | .fail => if s.loop = .writing then some { s with loop := .returned } else none
  | .over => if s.gen = .ended ∧ s.loop = .receiving then some { s with loop := .returned } else none

/-- The beginning (`response/sse.go:91`, `examples/cmd.go:111-112`). -/
def start : Conn := ⟨false, .selecting, .receiving, 0⟩

/-- Several actions, none of which is impossible when its turn comes. -/
def run (careful : Bool) : Conn → List Act → Option Conn
  | s, [] => some s
  | s, a :: as => (step careful s a).bind fun s' => run careful s' as

end Gofre.Stream
