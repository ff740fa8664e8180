import Verif.Model.Pattern
import Verif.Model.Url
import Verif.Model.Sort

/-!
# The pattern trie and its search (`router/path/matcher.go`)
-/

namespace Gofre.Path

/-- `node` (`router/path/matcher.go:14-21`).  The `parent` pointer is modelled by keeping the path
from the root during the search. -/
inductive Node
  | mk (max : UInt8) (prio : Nat) (seg : Segment) (pat : Option Pattern) (kids : List Node)

def Node.max : Node → UInt8
  | .mk m _ _ _ _ => m
def Node.prio : Node → Nat
  | .mk _ p _ _ _ => p
def Node.seg : Node → Segment
  | .mk _ _ s _ _ => s
/-- `isLeaf` (`router/path/matcher.go:27-29`) is `pat.isSome`. -/
def Node.pat : Node → Option Pattern
  | .mk _ _ _ p _ => p
def Node.kids : Node → List Node
  | .mk _ _ _ _ k => k

/-! ### Registration -/

/-- The value given to a node at depth `i` (`router/path/matcher.go:68-73`). -/
def maxAt (p : Pattern) (i : Nat) : UInt8 :=
  if p.isGreedy then 255 else p.maxMatchable - UInt8.ofNat i

/-- Whether the new segment `s` shares the node of the segment `c`
(`router/path/matcher.go:77-91`). -/
def shares (x : Ext) (ci : Bool) (s c : Segment) : Bool :=
  if c.kind = s.kind then
    match c.kind with
    | .capture => true
    | .single => true
    | .multiple => true
    | .constraint => s.re == some c.val
    | _ => if ci then x.eqFold s.val c.val else s.val == c.val
  else false

/-- The order used for sorting siblings (`router/path/matcher.go:119-126`): `strings.Compare` is
the lexicographic order of bytes. -/
def siblingLE (a b : Node) : Bool :=
  if a.prio = b.prio then decide (a.seg.val ≤ b.seg.val) else decide (a.prio < b.prio)

/-- `sort.SliceStable` with that comparison (`router/path/matcher.go:119-126`). -/
def sortSiblings (l : List Node) : List Node := Sort.stable siblingLE l

/-- `for i := 0; i < len(children); i++ { if … break }` (`router/path/matcher.go:75-105`): the
children before the first one that shares, that one, the children after it. -/
def findShare (x : Ext) (ci : Bool) (s : Segment) : List Node → Option (List Node × Node × List Node)
  | [] => none
  | c :: cs =>
    if shares x ci s c.seg then some ([], c, cs)
    else (findShare x ci s cs).map fun (a, c', b) => (c :: a, c', b)

/-- New nodes for the remaining segments (`router/path/matcher.go:107-130` for every one of them). -/
def chain (p : Pattern) : Nat → Segment → List Segment → Node
  | i, s, [] => .mk (maxAt p i) p.priority s (some p) []
  | i, s, s' :: ss => .mk (maxAt p i) p.priority s none [chain p (i + 1) s' ss]

/-- The loop of `AddPattern` (`router/path/matcher.go:65-140`) below a node with children `kids`;
`i` is the segment index.  The flag tells whether the duplicate error was returned.  `srt` is
the sorting of the siblings, `sortSiblings` in the program.  The final test of lines 142-144 never applies:
either a node was created or the last segment was found. -/
def insert (x : Ext) (ci : Bool) (srt : List Node → List Node) (p : Pattern) :
    Nat → Segment → List Segment → List Node → List Node × Bool
  | i, s, ss, kids =>
    match findShare x ci s kids with
    | none => (srt (kids ++ [chain p i s ss]), false)
    | some (a, .mk mx prio seg pat ks, b) =>
      let mx := if mx < maxAt p i then maxAt p i else mx
      match ss with
      | [] =>
        match pat with
        | some q => (a ++ .mk mx prio seg (some q) ks :: b, true)
        | none => (a ++ .mk mx prio seg (some p) ks :: b, false)
      | s' :: ss =>
        let (ks', err) := insert x ci srt p (i + 1) s' ss ks
        (a ++ .mk mx prio seg pat ks' :: b, err)

/-- `Matcher` (`router/path/matcher.go:38-42`); without anything it is what `NewMatcher` (`router/path/matcher.go:44-49`) returns. -/
structure Matcher where
  root : Option Pattern := none
  kids : List Node := []

/-- `AddPattern` (`router/path/matcher.go:51-146`); `true` = error. -/
def addPattern (x : Ext) (ci : Bool) (srt : List Node → List Node) (m : Matcher) (p : Pattern) : Matcher × Bool :=
  match p.segments with
  | [] =>
    match m.root with
    | some _ => (m, true)
    | none => ({ m with root := some p }, false)
  | s :: ss =>
    let (ks, err) := insert x ci srt p 0 s ss m.kids
    ({ m with kids := ks }, err)

/-! ### Search

The search is written over an abstract type `U` of request segments with a function
`acc : Segment → U → Option MT` standing for `matchUrlPathSegment` (`none` = panic). -/

/-- What `Match` can do. -/
inductive MRes
  | found (p : Pattern) (labels : List MT)
  | none
  | panic
  deriving DecidableEq, Repr

/-- Local variables of `Match` (`router/path/matcher.go:155-160`).  `path` is the current node
followed by its ancestors, without the root node: `kidsOf` gives the children of the current node.
`labels` are the match types stored in the request segments. -/
structure MSt where
  path : List Node
  depth : Nat
  idx : Nat
  nodeStack : List (Nat × Nat)
  mtStack : List MT
  labels : List MT

/-- The children of the current node. -/
def kidsOf (rootKids : List Node) : List Node → List Node
  | [] => rootKids
  | n :: _ => n.kids

/-- Whether some child accepts the request segment, tried in order
(`router/path/matcher.go:192-194`). -/
def anyAcc {U : Type} (acc : Segment → U → Option MT) (u : U) : List Node → Option Bool
  | [] => some false
  | n :: ns =>
    match acc n.seg u with
    | none => none
    | some .unknown => anyAcc acc u ns
    | some _ => some true

/-- Result of the loop of a `**` child (`router/path/matcher.go:189-208`). -/
inductive GRes
  | hit (idx : Nat) (labels : List MT)
  | miss
  | panic

/-- The loop `for urlSegmentIndex < urlLen` of a `**` child; `us` are the request segments from
`idx` on. -/
def greedyLoop {U : Type} (acc : Segment → U → Option MT) (kids : List Node) : Nat → List U → List MT → GRes
  | _, [], _ => .miss
  | idx, u :: us, labels =>
    let labels := labels.set idx .multiple
    match anyAcc acc u kids with
    | none => .panic
    | some true => .hit idx labels
    | some false => greedyLoop acc kids (idx + 1) us labels

/-- Result of the loop over the children. -/
inductive SRes
  | ret (r : MRes)
  | matched (s : MSt)
  | unmatched (labels : List MT)

/-- `for i := urlSegmentIndex; i < urlLen; i++ { … }` (`router/path/matcher.go:182-185`). -/
def fillMultiple (idx : Nat) (labels : List MT) : List MT :=
  labels.take idx ++ List.replicate (labels.length - idx) .multiple

/-- The loop over the children from index `ci` on (`router/path/matcher.go:171-229`); `budget`
children remain below `childrenLen`, a `uint16`. -/
def scan {U : Type} (acc : Segment → U → Option MT) (url : List U) (s : MSt) (u : U) :
    Nat → List Node → Nat → SRes
  | _, [], _ => .unmatched s.labels
  | _, _ :: _, 0 => .unmatched s.labels
  | ci, n :: ns, budget + 1 =>
    if n.max.toNat < url.length - s.idx then scan acc url s u (ci + 1) ns budget
    else
      match acc n.seg u with
      | none => .ret .panic
      | some .unknown => scan acc url s u (ci + 1) ns budget
      | some .multiple =>
        match n.kids, n.pat with
        | [], some p => .ret (.found p (fillMultiple s.idx s.labels))
        | kids, _ =>
          match greedyLoop acc kids s.idx (url.drop s.idx) s.labels with
          | .panic => .ret .panic
          | .miss => .ret .none
          | .hit j labels =>
            .matched { path := n :: s.path, depth := s.depth + 1, idx := (j + 255) % 256,
                       nodeStack := s.nodeStack.set s.depth (ci, j + 1),
                       mtStack := s.mtStack.set j .multiple, labels := labels }
      | some k =>
        if s.idx = url.length - 1 then
          match n.pat with
          | some p => .ret (.found p (s.labels.set s.idx k))
          | none => .unmatched (s.labels.set s.idx k)
        else
          .matched { path := n :: s.path, depth := s.depth + 1, idx := s.idx,
                     nodeStack := s.nodeStack.set s.depth (ci + 1, s.idx),
                     mtStack := s.mtStack, labels := s.labels.set s.idx k }

/-- Outcome of one iteration of the main loop. -/
inductive Out
  | done (r : MRes)
  | cont (s : MSt)

/-- The label `END` (`router/path/matcher.go:231-249`). -/
def atEnd (urlLen : Nat) (s : MSt) : SRes → Out
  | .ret r => .done r
  | .matched t =>
    match t.path with
    | [] => .cont { t with idx := (t.idx + 1) % 256 }
    | n :: _ =>
      match n.pat with
      | some p => if t.idx = urlLen - 1 then .done (.found p t.labels) else .cont { t with idx := (t.idx + 1) % 256 }
      | none => .cont { t with idx := (t.idx + 1) % 256 }
  | .unmatched labels =>
    match s.path with
    | [] => .done .none
    | _ :: ps =>
      .cont { path := ps, depth := s.depth - 1,
              idx := (((s.nodeStack.set s.depth (0, 0))[s.depth - 1]?).map (·.2)).getD 0,
              nodeStack := s.nodeStack.set s.depth (0, 0),
              mtStack := s.mtStack.set s.idx .unknown, labels := labels }

/-- One iteration of the main loop (`router/path/matcher.go:161-250`).  Reading
`nodeStack[treeDepth]` panics when the depth is not below 19. -/
def mstep {U : Type} (acc : Segment → U → Option MT) (rootKids : List Node) (url : List U) (s : MSt) : Out :=
  match url[s.idx]? with
  | none => .done .none
  | some u =>
    let labels :=
      match s.mtStack[s.idx]? with
      | some .unknown => s.labels
      | some k => s.labels.set s.idx k
      | none => s.labels
    match s.nodeStack[s.depth]? with
    | none => .done .panic
    | some (ci, _) =>
      let kids := kidsOf rootKids s.path
      atEnd url.length { s with labels := labels }
        (scan acc url { s with labels := labels } u ci (kids.drop ci) (kids.length % 65536 - ci))

/-- The main loop with fuel; `none` = fuel ran out. -/
def mrun {U : Type} (acc : Segment → U → Option MT) (rootKids : List Node) (url : List U) : Nat → MSt → Option MRes
  | 0, _ => none
  | f + 1, s =>
    match mstep acc rootKids url s with
    | .done r => some r
    | .cont s' => mrun acc rootKids url f s'

/-- The state before the main loop (`router/path/matcher.go:155-160`). -/
def mstart (urlLen : Nat) : MSt :=
  { path := [], depth := 0, idx := 0, nodeStack := List.replicate 19 (0, 0),
    mtStack := List.replicate 19 .unknown, labels := List.replicate urlLen .unknown }

/-- `Match` (`router/path/matcher.go:148-252`) with fuel for the main loop. -/
def matchM {U : Type} (acc : Segment → U → Option MT) (m : Matcher) (url : List U) (fuel : Nat) : Option MRes :=
  if url.length > maxPathSegments then some .none
  else
    match url, m.root with
    | [], some p => some (.found p [])
    | _, _ => mrun acc m.kids url fuel (mstart url.length)

/-- `matchUrlPathSegment` (`router/path/pattern.go:21-55`) on the path and the recorded offsets;
`none` = panic. -/
def matchUrl (x : Ext) (ci : Bool) (path : Str) (s : Segment) (u : USeg) : Option MT :=
  match s.kind with
  | .literal =>
    if (u.stop - u.start).toNat = s.val.length then (sliceU path u).bind (matchText x ci s) else some .unknown
  | .constraint => (sliceU path u).bind (matchText x ci s)
  | .regex => (sliceU path u).bind (matchText x ci s)
  | k => some k

/-! ### Path variables -/

/-- The index among the variables of the first variable called `name`
(`router/path/matching_context.go:62-72`). -/
def varIndex (name : Str) : List Segment → Option Nat
  | [] => none
  | s :: ss =>
    if s.kind = .capture ∨ s.kind = .constraint then
      if s.varName = name then some 0 else (varIndex name ss).map (· + 1)
    else varIndex name ss

/-- The request segment with the `k`-th variable label (`router/path/matching_context.go:78-88`). -/
def nthVar {U : Type} : Nat → List MT → List U → Option U
  | k, l :: ls, u :: us =>
    if l = .capture ∨ l = .constraint then
      match k with
      | 0 => some u
      | k + 1 => nthVar k ls us
    else nthVar k ls us
  | _, _, _ => none

/-- `PathVar` (`router/path/matching_context.go:53-89`) after a match of the trie; `none` = the
empty string.  (After a match of the root pattern `matchedPattern` stays nil and the result is the
empty string as well.) -/
def pathVar {U : Type} (p : Pattern) (labels : List MT) (url : List U) (name : Str) : Option U :=
  if p.captureVarsLen = 0 then none
  else
    match varIndex name p.segments with
    | none => none
    | some k => nthVar k labels url

end Gofre.Path
