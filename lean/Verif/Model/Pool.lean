import Verif.Model.Handler

/-!
# Pooled objects (`response/response.go:18-91`, `router/router.go:13-18` and `66-77`)

A machine with references.  The goroutines of the program are merged into one sequence of steps; as
nothing is assumed about the order, every interleaving is such a sequence.  References live in
*places*: variables of the application, the field `HttpHeaders` (or `HttpCookies`) of a response, the
variable `urlSegmentsPtr` of a running `ServeHTTP`.
-/

namespace Gofre.Pool

/-- A function changed at one point. -/
def upd {β : Type} (f : Nat → β) (a : Nat) (b : β) : Nat → β := fun x => if x = a then b else f x

/-- `heap`: the objects; those from `next` on do not exist yet.  `pool`: what `sync.Pool` holds.
`ref`: the reference in each place (`none` is nil).  `copies`: values of clones.  `log`: what was read,
and where. -/
structure St (β : Type) where
  heap : Nat → β
  next : Nat := 0
  pool : List Nat := []
  ref : Nat → Option Nat := fun _ => none
  copies : Nat → β
  log : List (Nat × β) := []

/-- The steps. -/
inductive Op (β : Type) where
  /-- `o = pool.Get()`: `NewHttpHeaders` (`response/response.go:45-47`), `NewEmptyHttpCookie` (`82-84`),
  `router/router.go:69`.  `sync.Pool` may give any object it holds, or a new one: `choice`. -/
  | get (o choice : Nat)
  /-- `r.Headers()`, `r.Cookies()`: get one if there is none (`response/headers.go:24-36`). -/
  | ensure (o choice : Nat)
  /-- `o = make(HttpHeaders)`. -/
  | make (o : Nat)
  /-- `o = nil`, as in a response constructed without headers. -/
  | setNil (o : Nat)
  /-- `o = p`, as in a response constructed with the map in `p`. -/
  | assign (o p : Nat)
  /-- Changing the object: `HttpHeaders.Set`, `HttpCookies.Add`; `ParseURLPath` and `Match` writing
  segments. -/
  | update (o : Nat) (f : β → β)
  /-- Reading the object: the loops of `HttpHeadersResponse.Write` (`response/headers.go:54-68`), `PathVar`. -/
  | read (o : Nat)
  /-- `MatchingContext.Clone` (`router/path/matching_context.go:35-51`). -/
  | clone (o v : Nat)
  /-- Reading a clone. -/
  | readClone (v : Nat)
  /-- `Clear` (`response/response.go:31-36`), or the `Reset` of all segments (`router/router.go:71-75`, `router/path/matching_context.go:23-27`). -/
  | clear (o : Nat)
  /-- `pool.Put` (`response/response.go:41`, `router/router.go:76`). -/
  | put (o : Nat)
  /-- The runtime drops an object from the pool. -/
  | forget (i : Nat)

variable {β : Type}

/-- `pool.Get()` into `o`. -/
def St.get (empty : β) (s : St β) (o choice : Nat) : St β :=
  match s.pool[choice]? with
  | some a => { s with pool := s.pool.eraseIdx choice, ref := upd s.ref o (some a) }
  | none => { s with heap := upd s.heap s.next empty, next := s.next + 1, ref := upd s.ref o (some s.next) }

/-- One step.  With a nil reference reading gives the empty object, `Release` is not called
(`response/headers.go:40-45`), and writing, which would panic, is left out. -/
def St.step (empty : β) (s : St β) : Op β → St β
  | .get o choice => s.get empty o choice
  | .ensure o choice => if (s.ref o).isSome then s else s.get empty o choice
  | .make o => { s with heap := upd s.heap s.next empty, next := s.next + 1, ref := upd s.ref o (some s.next) }
  | .setNil o => { s with ref := upd s.ref o none }
  | .assign o p => { s with ref := upd s.ref o (s.ref p) }
  | .update o f =>
    match s.ref o with
    | none => s
    | some a => { s with heap := upd s.heap a (f (s.heap a)) }
  | .read o => { s with log := s.log ++ [(o, ((s.ref o).map s.heap).getD empty)] }
  | .clone o v => { s with copies := upd s.copies v (((s.ref o).map s.heap).getD empty) }
  | .readClone v => { s with log := s.log ++ [(v, s.copies v)] }
  | .clear o =>
    match s.ref o with
    | none => s
    | some a => { s with heap := upd s.heap a empty }
  | .put o =>
    match s.ref o with
    | none => s
    | some a => { s with pool := a :: s.pool }
  | .forget i => { s with pool := s.pool.eraseIdx i }

/-- The start: no object, empty pool. -/
def St.init (empty : β) : St β := { heap := fun _ => empty, copies := fun _ => empty }

/-- A program execution. -/
def run (empty : β) (s : St β) (ops : List (Op β)) : St β := ops.foldl (·.step empty) s

end Gofre.Pool
