import Verif.Model.Csrf
import Verif.Model.OAuth

/-!
# Cache calls of requests served at the same time (`cache/cache.go`, `middleware/csrf.go`)

`InMemory` uses a Go map without a lock.  Go's maps watch for that: a write sets a flag while it
lasts, and a write or a read of a non-empty map that finds the flag set ends the process
(`fatal error: concurrent map writes` / `concurrent map read and map write`; it cannot be
recovered).  A write is two steps here, entering and leaving; reading is one step.  The flag is read and
set in one step, so that undetected corruption, which really exists, does not exist in the model.
-/

namespace Gofre.Race
open Gofre.Cache

/-- One call of the in-memory cache. -/
inductive Call
  | add (k : Str) (d : Int)
  | remove (k : Str)
  | contains (k : Str)
  deriving DecidableEq, Repr

/-- Calls a request has still to make, and whether it is inside the first of them. -/
structure Visit where
  todo : List Call
  inside : Bool := false
  deriving DecidableEq, Repr

/-- Calls of a request behind `CSRFPrevention` (`middleware/csrf.go:42-66`): a request with a safe
method only adds a nonce; another one checks its nonce, removes it and adds a new one. -/
def csrfTask (method nonce fresh : Str) : Visit :=
  if Csrf.skipCheck method then ⟨[.add fresh Csrf.expiration], false⟩
  else if nonce = [] then ⟨[], false⟩
  else ⟨[.contains nonce, .remove nonce, .add fresh Csrf.expiration], false⟩

/-- Calls of a request that starts an OAuth2 flow (`gofre.go:222-228`). -/
def initiateTask (state : Str) (d : Int) : Visit := ⟨[.add state d], false⟩

/-- Calls of a request to the OAuth2 callback (`gofre.go:246-250`). -/
def callbackTask (state : Str) : Visit := ⟨[.contains state], false⟩

/-- The map and its flag. -/
structure Mem where
  map : Cache
  writing : Bool
  deriving DecidableEq, Repr

/-- Outcome of a step: the process goes on or has ended. -/
inductive Next
  | ok (t : Visit) (m : Mem)
  | crash
  deriving DecidableEq, Repr

/-- One step of a request at time `now` (`cache/cache.go:24-36`; `mapassign`, `mapdelete` and `mapaccess2`
of Go's runtime).  A request whose nonce is not in the map makes no further call. -/
def taskStep (now : Int) (t : Visit) (m : Mem) : Next :=
  match t.todo with
  | [] => .ok t m
  | .contains k :: rest =>
    if m.map ≠ [] ∧ m.writing then .crash
    else if contains m.map now k then .ok ⟨rest, false⟩ m else .ok ⟨[], false⟩ m
  | .remove k :: rest =>
    if t.inside then if m.writing then .ok ⟨rest, false⟩ ⟨remove m.map k, false⟩ else .crash
    else if m.map = [] then .ok ⟨rest, false⟩ m
    else if m.writing then .crash else .ok { t with inside := true } { m with writing := true }
  | .add k d :: rest =>
    if t.inside then if m.writing then .ok ⟨rest, false⟩ ⟨add m.map now k d, false⟩ else .crash
    else if m.writing then .crash else .ok { t with inside := true } { m with writing := true }

/-- A schedule: which request moves next, and the clock.  `none` is the end of the process. -/
def runTasks : List (Nat × Int) → List Visit → Mem → Option (List Visit × Mem)
  | [], ts, m => some (ts, m)
  | (i, now) :: sch, ts, m =>
    match ts[i]? with
    | none => runTasks sch ts m
    | some t =>
      match taskStep now t m with
      | .crash => none
      | .ok t' m' => runTasks sch (ts.set i t') m'

/-- `rand.Int63` of the package `math/rand` with the default source, which Go 1.19 (`go.mod:3`) seeds with a
constant: the `i`-th number of a process is `rng i`.  The `n`-th state of a process
(`gofre.go:222`, 12 letters) when nothing else draws numbers. -/
def stateOf (rng : Nat → Nat) (n : Nat) : Option Str :=
  OAuth.generateUniqueId ((List.range 12).map fun i => rng (12 * n + i))

/-- The states a process issues to the initiate requests it gets (those for which a provider is
found), of which `n` came before. -/
def statesFrom (rng : Nat → Nat) : Nat → List (Int × Req) → List OAuth.Ev
  | _, [] => []
  | n, (t, r) :: rs =>
    match stateOf rng n with
    | some st => .initiate t st r :: statesFrom rng (n + 1) rs
    | none => statesFrom rng (n + 1) rs

end Gofre.Race
