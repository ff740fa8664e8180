import Verif.Bytes

/-!
# `sort.SliceStable` of Go's library

The router sorts the children of a node with it (`router/path/matcher.go:119-126`).  This is the
algorithm of `sort/zsortfunc.go` (`stable_func`): blocks of 20 elements are sorted by insertion and
then merged in place, two at a time, by the SymMerge algorithm.  An interval of the slice is
represented by the list of its elements.
-/

namespace Gofre.Sort
variable {α : Type}

/-- One insertion of `insertionSort_func`: the element moves left while the comparison with its
left neighbour holds.  The list is the sorted part, last element first. -/
def sinkLeft (less : α → α → Bool) (y : α) : List α → List α
  | [] => [y]
  | z :: zs => if less y z then z :: sinkLeft less y zs else y :: z :: zs

/-- `insertionSort_func`. -/
def insertionSort (less : α → α → Bool) (l : List α) : List α := (l.foldl (fun acc y => sinkLeft less y acc) []).reverse

/-- The search loops of `symMerge_func`: `for i < j { h := (i+j)/2; if … { i = h + 1 } else { j = h } }`.
The interval shrinks with every round, so `fuel = j - i` rounds are enough. -/
def search (up : Nat → Bool) : Nat → Nat → Nat → Nat
  | 0, i, _ => i
  | fuel + 1, i, j =>
    if i < j then
      let h := (i + j) / 2
      if up h then search up fuel (h + 1) j else search up fuel i h
    else i

/-- `symMerge_func` for the neighbouring intervals `l` and `r`; indices are counted from the
beginning of `l`.  The rotation exchanges the end of `l` with the beginning of `r`.  A call for an
empty interval is skipped by the program.  `fuel` bounds the depth of the recursion; the length of
both intervals is enough. -/
def symMerge (less : α → α → Bool) : Nat → List α → List α → List α
  | 0, l, r => l ++ r
  | fuel + 1, l, r =>
    match l, r with
    | [], r => r
    | l, [] => l
    | [x], r =>
      let i := search (fun h => match r[h]? with | some y => less y x | none => false) r.length 0 r.length
      r.take i ++ x :: r.drop i
    | l, [y] =>
      let i := search (fun h => match l[h]? with | some x => !less y x | none => false) l.length 0 l.length
      l.take i ++ y :: l.drop i
    | l, r =>
      let m := l.length
      let b := l.length + r.length
      let mid := b / 2
      let n := mid + m
      let first := if m > mid then n - b else 0
      let last := if m > mid then mid else m
      let start := search (fun c =>
        match (l ++ r)[n - 1 - c]?, (l ++ r)[c]? with
        | some y, some x => !less y x
        | _, _ => false) (last - first) first last
      let stop := n - start
      symMerge less fuel (l.take start) (r.take (stop - m)) ++ symMerge less fuel (l.drop start) (r.drop (stop - m))

/-- One round of merging: neighbouring blocks of `size` elements, the last one possibly shorter. -/
def mergePairs (less : α → α → Bool) (size : Nat) : Nat → List α → List α
  | 0, l => l
  | fuel + 1, l =>
    if l.length ≤ size then l
    else symMerge less l.length (l.take size) ((l.drop size).take size) ++ mergePairs less size fuel (l.drop (2 * size))

/-- `for blockSize < n { …; blockSize *= 2 }`. -/
def mergeAll (less : α → α → Bool) : Nat → Nat → List α → List α
  | 0, _, l => l
  | fuel + 1, size, l => if size < l.length then mergeAll less fuel (2 * size) (mergePairs less size l.length l) else l

/-- The blocks of 20 elements, each sorted by insertion. -/
def blocks (less : α → α → Bool) : Nat → List α → List α
  | 0, l => l
  | fuel + 1, l => if l.length ≤ 20 then insertionSort less l else insertionSort less (l.take 20) ++ blocks less fuel (l.drop 20)

/-- `stable_func`. -/
def stable (less : α → α → Bool) (l : List α) : List α :=
  mergeAll less l.length 20 (blocks less (l.length + 1) l)

end Gofre.Sort
