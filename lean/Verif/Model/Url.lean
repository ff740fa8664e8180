import Verif.Bytes

/-!
# Splitting the request path (`router/path/matching_context.go`)
-/

namespace Gofre.Path

/-- `UrlSegment` (`router/path/matching_context.go:17-21`) without the match type, which
`ParseURLPath` always leaves at zero. -/
structure USeg where
  start : UInt16
  stop : UInt16
  deriving DecidableEq, Repr

/-- The slice expression `path[s.startIndex:s.endIndex]`; `none` = panic. -/
def sliceU (path : Str) (s : USeg) : Option Str :=
  if s.start ≤ s.stop ∧ s.stop.toNat ≤ path.length then
    some ((path.take s.stop.toNat).drop s.start.toNat)
  else none

/-- Result of the closure `addSegment`. -/
inductive ARes
  | ok (idx : Nat) (buf : List USeg)
  | full
  | panic
  deriving DecidableEq, Repr

/-- The closure `addSegment` (`router/path/matching_context.go:101-122`).  `idx` is
`segmentsIndex`, `buf` the array behind `mc.PathSegments`. -/
def addSegment (path : Str) (a b idx : Nat) (buf : List USeg) : ARes :=
  if (path.take b).drop a = [] then .ok idx buf
  else if (path.take b).drop a = b!".." then .ok (idx - 1) buf
  else if idx ≥ 19 then .full
  else if idx < buf.length then .ok (idx + 1) (buf.set idx ⟨UInt16.ofNat a, UInt16.ofNat b⟩)
  else .panic

/-- The loop over the bytes (`router/path/matching_context.go:124-135`); the text argument is the
path from position `pos` on, `st` is `segmentStartPos`. -/
def urlLoop (path : Str) : Nat → Str → Option Nat → Nat → List USeg → Option Nat × ARes
  | _, [], st, idx, buf => (st, .ok idx buf)
  | pos, c :: rest, st, idx, buf =>
    if c = slash then
      match st with
      | none => urlLoop path (pos + 1) rest (some (pos + 1)) idx buf
      | some a =>
        match addSegment path a pos idx buf with
        | .ok i b => urlLoop path (pos + 1) rest (some (pos + 1)) i b
        | r => (st, r)
    else urlLoop path (pos + 1) rest st idx buf

/-- The part after the loop (`router/path/matching_context.go:137-142`). -/
def urlLast (path : Str) : Option Nat × ARes → ARes
  | (some a, .ok i b) => if a < path.length then addSegment path a path.length i b else .ok i b
  | (_, r) => r

/-- `ParseURLPath` (`router/path/matching_context.go:91-147`) with the buffer `buf` of the pool;
`none` = panic.  A nil slice and an empty one are not distinguished. -/
def parseURLPath (path : Str) (buf : List USeg) : Option (List USeg) :=
  if path = [] ∨ path = b!"/" then some []
  else
    match urlLast path (urlLoop path 0 path none 0 buf) with
    | .ok i b => some (b.take i)
    | .full => some []
    | .panic => none

end Gofre.Path
