import Verif.Spec.Auth

/-!
# Whole numbers in decimal
-/

namespace Gofre.Spec

/-- `s` is decimal digits, perhaps after a sign, and stands for `n`. -/
def IntText (s : Str) (n : Int) : Prop :=
  ∃ d : Str, d ≠ [] ∧ (∀ c ∈ d, 48 ≤ c.toNat ∧ c.toNat ≤ 57) ∧
    (s = d ∧ n = number d ∨ s = 43 :: d ∧ n = number d ∨ s = 45 :: d ∧ n = -(number d : Int))

end Gofre.Spec
