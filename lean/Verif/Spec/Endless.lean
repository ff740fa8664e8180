import Verif.Bytes

/-! # The patterns whose registration does not return

Only the places of the `**` matter.  A shape says for every piece, the last one first, whether it
is `**`. -/

namespace Gofre.Spec

/-- Which pieces are `**`, the last piece first. -/
def starShape (vs : List Str) : List Bool := vs.reverse.map fun v => v == b!"**"

/-- Is the piece `k * d` places from the end a `**`, or beyond the beginning? -/
def stops (shape : List Bool) (d k : Nat) : Bool := shape.length ≤ k * d || shape.getD (k * d) false

/-- Looking at every `d`-th piece from the end, the first one that is `**` or beyond the
beginning. -/
def hop (shape : List Bool) (d : Nat) : Nat := ((List.range (shape.length + 1)).find? (stops shape d)).getD 0

/-- The distance after some hops, the first at distance 1. -/
def walk (shape : List Bool) : Nat → Nat
  | 0 => 1
  | i + 1 => walk shape i + hop shape (walk shape i)

/-- More `**` than digits are left in 19, the last piece is not `**`, and the distance grows to 19
or more while there are `**` left to handle. -/
def EndlessShape (shape : List Bool) : Prop :=
  let stars := shape.countP id
  19 < shape.length + stars ∧ shape.head? = some false ∧ 1 ≤ stars ∧ 19 ≤ walk shape (stars - 1)

instance (shape : List Bool) : Decidable (EndlessShape shape) := by unfold EndlessShape; infer_instance

end Gofre.Spec
