import Verif.Spec.Route

/-! # Texts that differ in the case of ASCII letters -/

namespace Gofre.Spec

/-- The same character, or an ASCII letter in two cases. -/
def CaseOf (a b : UInt8) : Prop :=
  a = b ∨ (97 ≤ a.toNat ∧ a.toNat ≤ 122 ∧ b.toNat + 32 = a.toNat) ∨ (97 ≤ b.toNat ∧ b.toNat ≤ 122 ∧ a.toNat + 32 = b.toNat)

/-- The same text up to the case of ASCII letters. -/
def SameText (u v : Str) : Prop := All2 CaseOf u v

end Gofre.Spec
