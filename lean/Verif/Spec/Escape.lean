import Verif.Spec.Route

/-!
# Links to a route
-/

namespace Gofre.Spec
open Gofre.Path (Segment)

/-- What stands in a link in the place of a segment of the pattern: the value of its variable, or
the text of the segment. -/
def standsFor (vals : Str → Str) (s : Segment) : Str :=
  if s.kind = .capture ∨ s.kind = .constraint then vals s.varName else s.val

/-- The path of a link to a pattern, before decoding: a slash, then the escaped texts with slashes
between. -/
def link (escape : Str → Str) (vals : Str → Str) (ss : List Segment) : Str :=
  slash :: joinWith slash (ss.map fun s => escape (standsFor vals s))

/-- The value of a hexadecimal digit, upper or lower case. -/
inductive HexValue : UInt8 → Nat → Prop
  | digit (k : Nat) : k < 10 → HexValue (UInt8.ofNat (48 + k)) k
  | lower (k : Nat) : k < 6 → HexValue (UInt8.ofNat (97 + k)) (10 + k)
  | upper (k : Nat) : k < 6 → HexValue (UInt8.ofNat (65 + k)) (10 + k)

/-- The second text writes the first: every byte as it is, if it is not a percent sign, or as a percent sign and
the two hexadecimal digits of its value. -/
inductive Percent : Str → Str → Prop
  | nil : Percent [] []
  | same {c : UInt8} {s e : Str} : c ≠ 37 → Percent s e → Percent (c :: s) (c :: e)
  | escaped {a b : UInt8} {h k : Nat} {s e : Str} : HexValue a h → HexValue b k → Percent s e → Percent (UInt8.ofNat (16 * h + k) :: s) (37 :: a :: b :: e)

/-- A text that can be one segment of a request. -/
def Whole (v : Str) : Prop := v ≠ [] ∧ slash ∉ v ∧ v ≠ b!".."

end Gofre.Spec
