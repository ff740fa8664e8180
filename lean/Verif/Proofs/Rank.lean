import Verif.Spec.Priority

/-! # The codes of the segment kinds are ordered by specificity -/

namespace Gofre.Path
open Gofre.Spec

theorem rank_code : rank = MT.code := by
  funext k
  cases k <;> rfl

end Gofre.Path
