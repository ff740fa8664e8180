import Verif.Model.Pattern

/-! # The size of what was registered -/

namespace Gofre.Spec

/-- The segments of all registered patterns, counted together. -/
def weight (ps : List Gofre.Path.Pattern) : Nat := (ps.map fun p => p.segments.length).sum

end Gofre.Spec
