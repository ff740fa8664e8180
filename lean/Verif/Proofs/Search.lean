import Verif.Model.Trie

/-! # The search as a recursive function

`tryC` explores the children of a node depth first.  `mrun_eq` shows that the main loop of `Match`
with its stacks computes exactly this. -/

namespace Gofre.Path

/-- Result of exploring: `next` = this node does not match, go on with its siblings; `stop` = the
level fails; `abort` = the whole search fails. -/
inductive Res
  | found (p : Pattern) (labels : List MT)
  | next
  | stop
  | abort
  | panic

/-- Put a label in front of the labels found. -/
def Res.cons (k : MT) : Res → Res
  | .found p ls => .found p (k :: ls)
  | r => r

/-- The failure of a level lets its parent go on with the siblings. -/
def Res.up (k : MT) : Res → Res
  | .found p ls => .found p (k :: ls)
  | .stop => .next
  | r => r

variable {U : Type}

/-- The positions tried for a `**` whose children are explored by `f`. -/
def starLoop (any : U → Option Bool) (f : List U → Res) : List U → Res
  | [] => .abort
  | u :: us =>
    match any u with
    | none => .panic
    | some false => (starLoop any f us).cons .multiple
    | some true =>
      match f (u :: us) with
      | .stop => (starLoop any f us).cons .multiple
      | r => r

mutual
/-- Explore the children `ns` (at most `budget` of them) of a node at depth `d`. -/
def tryC (acc : Segment → U → Option MT) (d : Nat) : List Node → Nat → List U → Res
  | [], _, _ => .stop
  | _ :: _, 0, _ => .stop
  | n :: ns, budget + 1, us =>
    match tryN acc d n us with
    | .next => tryC acc d ns budget us
    | r => r
/-- Explore one node. -/
def tryN (acc : Segment → U → Option MT) (d : Nat) : Node → List U → Res
  | .mk mx _ seg pat kids, us =>
    match us with
    | [] => .stop
    | u :: us' =>
      if mx.toNat < (u :: us').length then .next
      else
        match acc seg u with
        | none => .panic
        | some .unknown => .next
        | some .multiple =>
          match kids, pat with
          | [], some p => .found p (List.replicate (u :: us').length .multiple)
          | kids, _ =>
            starLoop (fun v => anyAcc acc v kids)
              (fun vs => if d + 1 < 19 then tryC acc (d + 1) kids (kids.length % 65536) vs else .panic) (u :: us')
        | some k =>
          match us' with
          | [] =>
            match pat with
            | some p => .found p [k]
            | none => .stop
          | us' => ((if d + 1 < 19 then tryC acc (d + 1) kids (kids.length % 65536) us' else .panic) : Res).up k
end

end Gofre.Path
