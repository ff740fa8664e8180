import Verif.Spec.Route

/-! # Names of the variables of a pattern -/

namespace Gofre.Spec
open Gofre.Path

/-- The segment is a variable, with or without a constraint. -/
def IsVariable (s : Segment) : Prop := s.kind = .capture ∨ s.kind = .constraint

instance (s : Segment) : Decidable (IsVariable s) := inferInstanceAs (Decidable (_ ∨ _))

/-- The segment at `i` is the first variable called `name`. -/
def FirstNamed (ss : List Segment) (i : Nat) (name : Str) : Prop :=
  (∃ s, ss[i]? = some s ∧ IsVariable s ∧ s.varName = name) ∧ ∀ j, j < i → ∀ t, ss[j]? = some t → IsVariable t → t.varName ≠ name

end Gofre.Spec
