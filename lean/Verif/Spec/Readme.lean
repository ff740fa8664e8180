import Verif.Spec.Route

/-!
# What the README documents about `/users/...`
-/

namespace Gofre.Spec

/-- The four patterns of the README (`README.md:124-127`). -/
inductive ReadmePattern
  | lastName | johnDoe | anyDoe | all
  deriving DecidableEq

/-- Their texts. -/
def ReadmePattern.text : ReadmePattern → Str
  | .lastName => b!"/users/john/{lastName}"
  | .johnDoe => b!"/users/john/doe"
  | .anyDoe => b!"/users/*/doe"
  | .all => b!"/users/**"

/-- The pattern documented to serve `/users/` followed by the segments given (`README.md:129-139`). -/
def readmeAnswer (rest : List Str) : ReadmePattern :=
  if rest = [b!"john", b!"doe"] then .johnDoe
  else if rest.length = 2 ∧ rest.head? = some b!"john" then .lastName
  else if rest.length = 2 ∧ rest.getLast? = some b!"doe" then .anyDoe
  else .all

end Gofre.Spec
