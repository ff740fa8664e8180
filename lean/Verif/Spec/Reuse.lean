import Verif.Spec.Compress

/-! # Answers kept by caches between server and client -/

namespace Gofre.Spec

/-- When a cache may answer a request with a stored answer (RFC 9111, section 4.1; RFC 9110, section
12.5.5).  `vary` are the `Vary` lines of the stored answer, `old` the header fields of the request it
was made for and `new` those of the request to be answered, by their names in lower case. -/
def Reusable (vary : List Str) (old new : Str → List Str) : Prop :=
  ∀ v ∈ vary, ¬ Lists v b!"*" ∧ ∀ name, Lists v name → old name = new name

end Gofre.Spec
