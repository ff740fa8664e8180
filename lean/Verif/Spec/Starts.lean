import Verif.Spec.App
import Verif.Spec.Route

/-! # Which routes cannot be registered together -/

namespace Gofre.Spec
open Gofre.Path

/-- Two routes for one method with the same pattern up to the names of variables and, if letter case is ignored, the case of letters; `counts` says which patterns count. -/
def Clash {H : Type} (x : Ext) (ci : Bool) (counts : List Segment → Prop) (a b : Mux.Route H) : Prop :=
  SameMethod a.method b.method ∧ ∃ p q, parsePattern x ci a.path = .ok p ∧ parsePattern x ci b.path = .ok q ∧ counts q.segments ∧ SameShape x ci p.segments q.segments

/-- The pattern has no constraint. -/
def Unconstrained (ss : List Segment) : Prop := ∀ s ∈ ss, s.kind ≠ .constraint

end Gofre.Spec
