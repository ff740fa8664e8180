import Verif.Spec.SimpleRoutes
import Verif.Spec.App

/-! # Programs whose routes are simple -/

namespace Gofre.Spec

/-- Methods and patterns of the routes of a program. -/
def bareRoutes {H : Type} (rts : List (Mux.Route H)) : List Spec.Route := rts.map fun rt => ⟨rt.method, rt.path, 0⟩

end Gofre.Spec
