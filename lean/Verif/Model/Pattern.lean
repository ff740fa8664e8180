import Verif.Model.Glob

/-!
# Path patterns (`router/path/pattern.go`, `router/path/encode.go`)
-/

namespace Gofre.Path

/-- `MatchType` (`router/path/encode.go:3-14`). -/
inductive MT
  | unknown | literal | constraint | capture | regex | single | multiple
  deriving DecidableEq, Repr

/-- The numbers behind the constants (`router/path/encode.go:7-13`). -/
def MT.code : MT → Nat
  | .unknown => 0
  | .literal => 1
  | .constraint => 2
  | .capture => 3
  | .regex => 4
  | .single => 5
  | .multiple => 6

/-- `MaxPathSegments` (`router/path/encode.go:6`). -/
abbrev maxPathSegments : Nat := 19

/-- Library functions used by the package that are not modelled: whether `regexp.Compile`
succeeds, `MatchString` of the compiled expression, `strings.EqualFold`. -/
structure Ext where
  compiles : Str → Bool
  reMatch : Str → Str → Bool
  eqFold : Str → Str → Bool

/-- `segment` (`router/path/pattern.go:14-19`).  `re` is the source text of the compiled
expression (`captureVarPattern.String()`). -/
structure Segment where
  val : Str
  kind : MT
  varName : Str := []
  re : Option Str := none
  deriving DecidableEq, Repr

/-- `Pattern` (`router/path/pattern.go:61-69`).  `captureVarsLen` and `maxMatchable` are
`uint8`, `priority` is `uint64`.  `attachment` stands for the handler. -/
structure Pattern where
  captureVarsLen : UInt8 := 0
  maxMatchable : UInt8 := 0
  priority : Nat := 0
  segments : List Segment := []
  raw : Str
  attachment : Nat := 0
  deriving DecidableEq, Repr

/-- `isGreedy` (`router/path/pattern.go:78-80`). -/
def Pattern.isGreedy (p : Pattern) : Bool := p.maxMatchable == 255

/-- The loop over consecutive asterisks (`router/path/pattern.go:329-340`); `true` = error. -/
def starsLoop : Nat → Str → Bool
  | _, [] => false
  | n, c :: l =>
    let n := if c = 42 then n + 1 else 0
    if n ≥ 2 then true else starsLoop n l

/-- The loop over colons (`router/path/pattern.go:314-323`); `true` = error.  `l` is the text
from position `pos`, `len` the length of the segment. -/
def colonsLoop (len : Nat) : Nat → Str → Bool
  | _, [] => false
  | pos, c :: l =>
    if pos < len - 1 then
      if c = 58 ∧ (pos = 1 ∨ pos = len - 2) then true else colonsLoop len (pos + 1) l
    else false

/-- `validatePathSegment` (`router/path/pattern.go:296-343`); `true` = accepted. -/
def validatePathSegment (s : Str) : Bool :=
  match s with
  | [] => false
  | c :: l =>
    let last := (c :: l).getLast (by simp)
    if c = 123 ∧ last ≠ 125 then false
    else if last = 125 ∧ c ≠ 123 then false
    else if c = 123 ∧ last = 125 ∧ ((c :: l).length = 2 ∨ colonsLoop (c :: l).length 1 l = true) then false
    else if s = b!"*" ∨ s = b!"**" then true
    else !starsLoop 0 (c :: l)

/-- `determineMatchTypeForSegment` (`router/path/pattern.go:272-294`).  The empty segment would
make the Go code panic; it is excluded by `validatePathSegment`. -/
def determineMatchType (s : Str) : MT :=
  if s = b!"*" then .single
  else if s = b!"**" then .multiple
  else if s.head? = some 123 ∧ s.getLast? = some 125 then
    if s.contains 58 then .constraint else .capture
  else if s.any (fun c => c = 63 || c = 42) then .regex
  else .literal

/-- `strings.IndexRune(s, ':')` for text that contains a colon. -/
def colonIndex : Str → Nat
  | [] => 0
  | c :: l => if c = 58 then 0 else colonIndex l + 1

/-- Building one segment (`router/path/pattern.go:135-160`); `none` when the constraint does not
compile. -/
def mkSegment (x : Ext) (ci : Bool) (v : Str) : Option Segment :=
  match determineMatchType v with
  | .capture => some { val := v, kind := .capture, varName := (v.take (v.length - 1)).drop 1 }
  | .constraint =>
    let i := colonIndex v
    let src := (v.take (v.length - 1)).drop (i + 1)
    let src := if ci then b!"(?i)" ++ src else src
    if x.compiles src then
      some { val := v, kind := .constraint, varName := (v.take i).drop 1, re := some src }
    else none
  | k => some { val := v, kind := k }

/-- Local variables of the loop of `ParsePattern` (`router/path/pattern.go:106-112`).
`segs` is the slice of fixed length with nil entries. -/
structure PSt where
  start : Nat
  count : UInt8
  caps : UInt8
  last : MT
  maxCode : Nat
  segs : List (Option Segment)
  deriving DecidableEq, Repr

/-- Outcome of parsing. -/
inductive PRes (α : Type)
  | ok (a : α)
  | error
  | panic
  | hangs
  deriving DecidableEq, Repr

/-- What happens at the end of a segment with text `v` at position `pos`
(`router/path/pattern.go:117-162`). -/
def endSegment (x : Ext) (ci : Bool) (v : Str) (pos : Nat) (s : PSt) : PRes PSt :=
  if !validatePathSegment v then .error
  else
    let k := determineMatchType v
    if s.last = .multiple ∧ k = .multiple then .error
    else
      match mkSegment x ci v with
      | none => .error
      | some seg =>
        if s.count.toNat < s.segs.length then
          .ok { start := pos, count := s.count + 1,
                caps := if k = .capture ∨ k = .constraint then s.caps + 1 else s.caps,
                last := k, maxCode := max s.maxCode k.code,
                segs := s.segs.set s.count.toNat (some seg) }
        else .panic

/-- The loop of `ParsePattern` (`router/path/pattern.go:114-164`); the second argument is the
text from position `pos` on. -/
def parseLoop (x : Ext) (ci : Bool) (pat : Str) : Nat → Str → PSt → PRes PSt
  | _, [], s => .ok s
  | pos, c :: rest, s =>
    if c = slash ∨ rest = [] then
      let v := if c = slash then (pat.take pos).drop (s.start + 1) else pat.drop (s.start + 1)
      match endSegment x ci v pos s with
      | .ok s' => parseLoop x ci pat (pos + 1) rest s'
      | r => r
    else parseLoop x ci pat (pos + 1) rest s

/-- `getDecimalDivider` (`router/path/encode.go:68-109`). -/
def decimalDivider (z : Int) : Nat := if 1 ≤ z ∧ z ≤ 18 then 10 ^ z.toNat else 1

/-- `uint64` wrap-around. -/
def w64 (n : Nat) : Nat := n % 2 ^ 64

/-- The loop of `getSplitIndex` (`router/path/encode.go:33-41`) with fuel; `none` = fuel ran out.
Result: the number of iterations. -/
def splitLoop (m : Nat) : Nat → Nat → Nat → Option Nat
  | 0, _, _ => none
  | f + 1, n, k =>
    if n = 0 then some k
    else if n % 10 = 6 then some k
    else splitLoop m f (n / m) (k + 1)

/-- `getSplitIndex` (`router/path/encode.go:33-43`).  A divider of at least 10 ends the loop
within 20 iterations, a divider of 1 ends it at once or never
(`Props.splitLoop_hangs_forever`). -/
def splitIndex (nr : Nat) (d : Int) : Option Int :=
  (splitLoop (decimalDivider d) 21 nr 0).map fun (k : Nat) => (k : Int) + d

/-- Appending digits 6 (`router/path/encode.go:55-57`). -/
def addSixes : Nat → Nat → Nat
  | 0, n => n
  | k + 1, n => addSixes k (w64 (n * 10 + 6))

/-- The loop over the `**` segments (`router/path/encode.go:46-61`); `left` iterations remain,
`a` digits are added each time and `rem` more the last time. -/
def sixesLoop (a rem : Int) : Nat → Nat → Int → Option Nat
  | 0, prio, _ => some prio
  | left + 1, prio, d =>
    match splitIndex prio d with
    | none => none
    | some si =>
      let m := decimalDivider si
      let add := if left = 0 then a + rem else a
      sixesLoop a rem left (w64 (w64 (addSixes add.toNat (prio / m) * m) + prio % m)) (si + add)

/-- The decimal number spelled by the segment kinds (`router/path/encode.go:17-25`). -/
def kindsNumber (ks : List MT) : Nat := ks.foldl (fun p k => w64 (p * 10 + k.code)) 0

/-- `computePriority` (`router/path/encode.go:16-66`); `none` = does not terminate. -/
def computePriority (ks : List MT) : Option Nat :=
  let cnt := ks.countP (· = .multiple)
  let spare : Int := 19 - (ks.length : Int)
  if cnt = 0 then some (w64 (kindsNumber ks * decimalDivider spare))
  else sixesLoop (spare.tdiv cnt) (spare.tmod cnt) cnt (kindsNumber ks) 1

/-- `ParsePattern` (`router/path/pattern.go:86-178`).  The final slice has no nil entries
(`Props.c05_segments`), so they are dropped here. -/
def parsePattern (x : Ext) (ci : Bool) (pat : Str) : PRes Pattern :=
  match pat with
  | [] => .error
  | c :: rest =>
    if c ≠ slash then .error
    else if rest = [] then .ok { raw := pat }
    else
      match parseLoop x ci pat 1 rest
          ⟨0, 0, 0, .unknown, 0, List.replicate (pat.count slash) none⟩ with
      | .ok s =>
        let segs := (s.segs.take s.count.toNat).filterMap id
        match computePriority (segs.map (·.kind)) with
        | none => .hangs
        | some prio =>
          .ok { captureVarsLen := s.caps,
                maxMatchable := if s.maxCode = 6 then 255 else s.count,
                priority := prio, segments := segs, raw := pat }
      | .error => .error
      | .panic => .panic
      | .hangs => .hangs

/-- `HighPriorityThan` (`router/path/pattern.go:71-76`); `strings.Compare` is the lexicographic order
of bytes. -/
def Pattern.highPriorityThan (p q : Pattern) : Bool :=
  if p.priority = q.priority then decide (p.raw < q.raw) else decide (p.priority < q.priority)

/-- `matchUrlPathSegment` (`router/path/pattern.go:21-55`) on the text `u` of the request segment
(slicing the path is modelled in `Verif.Model.Trie`).  `none` = panic. -/
def matchText (x : Ext) (ci : Bool) (s : Segment) (u : Str) : Option MT :=
  match s.kind with
  | .literal =>
    if u.length = s.val.length then
      if ci then (if x.eqFold u s.val then some .literal else some .unknown)
      else (if u = s.val then some .literal else some .unknown)
    else some .unknown
  | .single => some .single
  | .capture => some .capture
  | .multiple => some .multiple
  | .constraint =>
    match s.re with
    | none => none
    | some src => if x.reMatch src u then some .constraint else some .unknown
  | .regex =>
    match Glob.regexSegmentMatch ci u s.val with
    | some (.ret true) => some .regex
    | some (.ret false) => some .unknown
    | _ => none
  | .unknown => some .unknown

end Gofre.Path
