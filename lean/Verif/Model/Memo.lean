import Verif.Bytes

/-!
# The header text kept by `SecurityHeaders`, used by several requests at once
(`middleware/security.go:32-50`, `:57-72`)

The configuration is shared by all requests and the field is read and written without
synchronisation.  A Go string is a pointer and a length, which are loaded and stored one after the
other; in which order is up to the compiler.  Each single load and store is atomic here and seen by
everybody at once; the Go memory model promises less.
-/

namespace Gofre.Memo

/-- The field `headerValue`: what the pointer points at (`none` for nil), and the length. -/
structure Cell where
  ptr : Option Str
  len : Nat
  deriving DecidableEq

/-- Where a request is in `getHeaderValue` (`middleware/security.go:36-50`; the same for
`getAntiClickJackingHeaderValue`, `:61-72`). -/
inductive Pc
  /-- `if c.headerValue == ""` (line 37): looks at the length. -/
  | check
  /-- The two stores of `c.headerValue = sb.String()` (line 47). -/
  | store1
  | store2
  /-- The two loads of `return c.headerValue` (line 49). -/
  | load1
  | load2 (p : Option Str) (n : Nat)
  /-- The string returned. -/
  | out (p : Option Str) (n : Nat)
  deriving DecidableEq

/-- How the program was compiled: whether lengths are stored, and loaded, before pointers. -/
structure Order where
  storeLen : Bool
  loadLen : Bool

/-- One step of one request; `text` is what the builder makes of the configuration (lines 38-46).
`none` if it has returned. -/
def step (o : Order) (text : Str) (c : Cell) : Pc → Option (Cell × Pc)
  | .check => some (c, if c.len = 0 then .store1 else .load1)
  | .store1 => some (if o.storeLen then { c with len := text.length } else { c with ptr := some text }, .store2)
  | .store2 => some (if o.storeLen then { c with ptr := some text } else { c with len := text.length }, .load1)
  | .load1 => some (c, if o.loadLen then .load2 none c.len else .load2 c.ptr 0)
  | .load2 p n => some (c, if o.loadLen then .out c.ptr n else .out p c.len)
  | .out _ _ => none

/-- The field and the requests. -/
structure State where
  cell : Cell
  pcs : Nat → Pc

/-- Request `i` makes its next step. -/
def State.next (o : Order) (text : Str) (s : State) (i : Nat) : State :=
  match step o text s.cell (s.pcs i) with
  | none => s
  | some (c, pc) => ⟨c, fun j => if j = i then pc else s.pcs j⟩

/-- The requests take turns as given. -/
def run (o : Order) (text : Str) : State → List Nat → State
  | s, [] => s
  | s, i :: is => run o text (s.next o text i) is

/-- The server has started; no request has been here. -/
def start : State := ⟨⟨none, 0⟩, fun _ => .check⟩

/-- Using a string: `none` = the pointer is nil and the program crashes. -/
def use (p : Option Str) (n : Nat) : Option Str := if n = 0 then some [] else p.map (·.take n)

end Gofre.Memo
