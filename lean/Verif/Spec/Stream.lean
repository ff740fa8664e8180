import Verif.Model.Stream

/-! # Executions of an event stream without end -/

namespace Gofre.Spec
open Gofre.Stream

/-- The actions of the loop of `Write`. -/
def loopActs : List Act := [.pass, .check, .write, .fail, .over]

/-- An execution without end: at each instant one action, or none. -/
structure Execution (careful : Bool) (st : Nat → Conn) (act : Nat → Option Act) : Prop where
  steps : ∀ n a, act n = some a → step careful (st n) a = some (st (n + 1))
  rests : ∀ n, act n = none → st (n + 1) = st n

/-- The scheduler: a loop that can go on at every instant goes on, and a `select` that meets the
cancelled context again and again chooses it. -/
structure Scheduled (careful : Bool) (st : Nat → Conn) (act : Nat → Option Act) : Prop where
  loop : ∀ n, (∀ m, n ≤ m → ∃ a ∈ loopActs, (step careful (st m) a).isSome) → ∃ m a, n ≤ m ∧ a ∈ loopActs ∧ act m = some a
  select : (∀ n, ∃ m, n ≤ m ∧ (step careful (st m) .quit).isSome) → ∃ m, act m = some .quit

/-- The goroutine waits for an event to be taken that nobody will take: the loop has returned, or
is going to, as it holds the event before and the context is done. -/
def Leaked (s : Conn) : Prop := s.gen = .sending ∧ (s.loop = .returned ∨ s.done = true ∧ s.loop = .holding)

end Gofre.Spec
