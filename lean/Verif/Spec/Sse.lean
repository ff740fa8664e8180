import Verif.Spec.Response

/-! # How a client reads an event stream

The parsing rules of the HTML standard ("9.2.6 Interpreting an event stream") on bytes: blocks are
given as they are, also those without data, which a browser does not dispatch, and the last event id
is not remembered between blocks. -/

namespace Gofre.Spec
open Gofre.Http Gofre.Response

/-- The complete lines of a text: they end in LF, CR or CR LF. -/
def linesFrom (cur : Str) : Str → List Str
  | [] => []
  | 13 :: 10 :: l => cur :: linesFrom [] l
  | c :: l => if c = 10 ∨ c = 13 then cur :: linesFrom [] l else linesFrom (cur ++ [c]) l

/-- The text before the first colon, and the text after it. -/
def cutColon : Str → Str × Option Str
  | [] => ([], none)
  | c :: l => if c = 58 then ([], some l) else (c :: (cutColon l).1, (cutColon l).2)

/-- One space after the colon does not count. -/
def dropSpace : Str → Str
  | 32 :: l => l
  | l => l

/-- A line of a block. -/
def readLine (b : Event) (line : Str) : Event :=
  let field := (cutColon line).1
  let value := dropSpace ((cutColon line).2.getD [])
  if field = b!"event" then { b with name := value }
  else if field = b!"data" then { b with data := b.data ++ [value] }
  else if field = b!"id" then if (0 : UInt8) ∈ value then b else { b with id := value }
  else if field = b!"retry" then
    match parseDigits value with
    | some n => { b with retry := n }
    | none => b
  else b

/-- The blocks, each ended by an empty line; empty ones do not count. -/
def readBlocks (b : Event) : List Str → List Event
  | [] => []
  | [] :: ls => if b = {} then readBlocks {} ls else b :: readBlocks {} ls
  | (c :: l) :: ls => readBlocks (readLine b (c :: l)) ls

/-- The events a client reads. -/
def readStream (s : Str) : List Event := readBlocks {} (linesFrom [] s)

/-- A text without line breaks. -/
def OneLine (s : Str) : Prop := (10 : UInt8) ∉ s ∧ (13 : UInt8) ∉ s

/-- An event that can be sent: no line breaks, no NUL in the id, a retry time that fits an `int`. -/
structure Sendable (e : Event) : Prop where
  name : OneLine e.name
  id : OneLine e.id
  idNul : (0 : UInt8) ∉ e.id
  data : ∀ d ∈ e.data, OneLine d
  retry : e.retry < 2 ^ 63

/-- A retry time that is not positive is none. -/
def normalEvent (e : Event) : Event := { e with retry := max e.retry 0 }

/-- What is sent for an event with text `t`: the text, if there is any, and a flush. -/
def delivery (t : Str) : List Ev := (if t = [] then [] else [.data t]) ++ [.flush]

end Gofre.Spec

namespace Gofre.Spec
open Gofre.Http Gofre.Response

/-- Why the delivery of events ends after `n` of them, what else is sent, and whether the response
still waits. -/
inductive Stopped (plan : Nat → Option Nat) (feed : Feed) (n : Nat) : List Ev → Bool → Prop
  | closed : n = feed.events.length → feed.closes = true → Stopped plan feed n [] false
  | waiting : n = feed.events.length → feed.closes = false → Stopped plan feed n [] true
  | cancelled (e : Event) : feed.events[n]? = some (e, true) → Stopped plan feed n [] false
  /-- The connection takes only the first `k` bytes of the event. -/
  | failed (e : Event) (i k : Nat) : feed.events[n]? = some (e, false) → plan i = some k → Stopped plan feed n [.data ((eventText e).take k)] false

/-- A flush of the connection. -/
def isFlush : Ev → Bool
  | .flush => true
  | _ => false

end Gofre.Spec
