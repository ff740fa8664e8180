import Verif.Model.AnyCache

/-! # Caches that forget nothing before its time -/

namespace Gofre.Spec
open Gofre.AnyCache

/-- A record of calls in which `Contains` says yes to every key that was added without error, has not run out and was neither removed nor added
again since. -/
def Retentive (calls : List Call) : Prop :=
  ∀ p q post t k d now ans, calls = p ++ .add t k d none :: (q ++ .contains now k ans :: post) → now < t + d →
    Call.remove k ∉ q → (∀ t' d' e, Call.add t' k d' e ∉ q) → ans = true

end Gofre.Spec
