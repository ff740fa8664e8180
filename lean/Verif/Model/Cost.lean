import Verif.Model.Router

/-! # The search with the calls of `matchUrlPathSegment` counted

The same functions as in `Model/Trie.lean`, each with the number of calls it makes beside its
result; `Proofs/Cost.lean` shows that the results are the same. -/

namespace Gofre.Path

/-- `anyAcc` (`router/path/matcher.go:192-194`) and its calls. -/
def anyC {U : Type} (acc : Segment → U → Option MT) (u : U) : List Node → Option Bool × Nat
  | [] => (some false, 0)
  | n :: ns =>
    match acc n.seg u with
    | none => (none, 1)
    | some .unknown => ((anyC acc u ns).1, (anyC acc u ns).2 + 1)
    | some _ => (some true, 1)

/-- `greedyLoop` (`router/path/matcher.go:189-208`) and its calls. -/
def greedyC {U : Type} (acc : Segment → U → Option MT) (kids : List Node) : Nat → List U → List MT → GRes × Nat
  | _, [], _ => (.miss, 0)
  | idx, u :: us, labels =>
    let labels := labels.set idx .multiple
    let (a, k) := anyC acc u kids
    match a with
    | none => (.panic, k)
    | some true => (.hit idx labels, k)
    | some false => let r := greedyC acc kids (idx + 1) us labels; (r.1, k + r.2)

/-- `scan` (`router/path/matcher.go:171-229`) and its calls. -/
def scanC {U : Type} (acc : Segment → U → Option MT) (url : List U) (s : MSt) (u : U) :
    Nat → List Node → Nat → SRes × Nat
  | _, [], _ => (.unmatched s.labels, 0)
  | _, _ :: _, 0 => (.unmatched s.labels, 0)
  | ci, n :: ns, budget + 1 =>
    if n.max.toNat < url.length - s.idx then scanC acc url s u (ci + 1) ns budget
    else
      match acc n.seg u with
      | none => (.ret .panic, 1)
      | some .unknown => let r := scanC acc url s u (ci + 1) ns budget; (r.1, r.2 + 1)
      | some .multiple =>
        match n.kids, n.pat with
        | [], some p => (.ret (.found p (fillMultiple s.idx s.labels)), 1)
        | kids, _ =>
          let (g, k) := greedyC acc kids s.idx (url.drop s.idx) s.labels
          match g with
          | .panic => (.ret .panic, k + 1)
          | .miss => (.ret .none, k + 1)
          | .hit j labels =>
            (.matched { path := n :: s.path, depth := s.depth + 1, idx := (j + 255) % 256,
                        nodeStack := s.nodeStack.set s.depth (ci, j + 1),
                        mtStack := s.mtStack.set j .multiple, labels := labels }, k + 1)
      | some k =>
        if s.idx = url.length - 1 then
          match n.pat with
          | some p => (.ret (.found p (s.labels.set s.idx k)), 1)
          | none => (.unmatched (s.labels.set s.idx k), 1)
        else
          (.matched { path := n :: s.path, depth := s.depth + 1, idx := s.idx,
                      nodeStack := s.nodeStack.set s.depth (ci + 1, s.idx),
                      mtStack := s.mtStack, labels := s.labels.set s.idx k }, 1)

/-- `mstep` (`router/path/matcher.go:161-250`) and its calls. -/
def mstepC {U : Type} (acc : Segment → U → Option MT) (rootKids : List Node) (url : List U) (s : MSt) : Out × Nat :=
  match url[s.idx]? with
  | none => (.done .none, 0)
  | some u =>
    let labels :=
      match s.mtStack[s.idx]? with
      | some .unknown => s.labels
      | some k => s.labels.set s.idx k
      | none => s.labels
    match s.nodeStack[s.depth]? with
    | none => (.done .panic, 0)
    | some (ci, _) =>
      let kids := kidsOf rootKids s.path
      let r := scanC acc url { s with labels := labels } u ci (kids.drop ci) (kids.length % 65536 - ci)
      (atEnd url.length { s with labels := labels } r.1, r.2)

/-- `mrun` (`router/path/matcher.go:161-250`) and its calls. -/
def mrunC {U : Type} (acc : Segment → U → Option MT) (rootKids : List Node) (url : List U) : Nat → MSt → Option MRes × Nat
  | 0, _ => (none, 0)
  | f + 1, s =>
    let (o, k) := mstepC acc rootKids url s
    match o with
    | .done r => (some r, k)
    | .cont s' => let r := mrunC acc rootKids url f s'; (r.1, k + r.2)

/-- `matchM` (`router/path/matcher.go:148-252`) and its calls. -/
def matchMC {U : Type} (acc : Segment → U → Option MT) (m : Matcher) (url : List U) (fuel : Nat) : Option MRes × Nat :=
  if url.length > maxPathSegments then (some .none, 0)
  else
    match url, m.root with
    | [], some p => (some (.found p []), 0)
    | _, _ => mrunC acc m.kids url fuel (mstart url.length)

/-- `lookup` (`router/router.go:78-86`) and its calls of `matchUrlPathSegment`. -/
def lookupC (x : Ext) (ci : Bool) (m : Matcher) (path : Str) (buf : List USeg) (fuel : Nat) : Option MRes × Nat :=
  match parseURLPath path buf with
  | none => (some .panic, 0)
  | some segs => matchMC (matchUrl x ci path) m segs fuel

end Gofre.Path
