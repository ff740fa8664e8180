import Verif.Spec.Route

/-! # Segments of different patterns that stand for each other -/

namespace Gofre.Spec
open Gofre.Path

/-- The segment `t` stands for the segment `s`: it is `s` itself, or a segment of the same kind of one of the patterns `ps`, with the same text
(up to the case of letters if that is ignored) if these are texts or wildcards, and whose whole text is the expression of `s` if these are constrained
variables. -/
def StandsFor (x : Ext) (ci : Bool) (ps : List Pattern) (s t : Segment) : Prop :=
  t = s ∨ (∃ p ∈ ps, t ∈ p.segments) ∧ t.kind = s.kind ∧
    (s.kind = .literal ∨ s.kind = .regex → s.val = t.val ∨ (ci = true ∧ x.eqFold s.val t.val = true)) ∧
    (s.kind = .constraint → s.re = some t.val)

/-- A pattern for which no other segments can stand than such that fit the same texts: no constrained variable whose expression starts with a brace, and
no wildcard when the case of letters is ignored. -/
def OwnSegments (ci : Bool) (ss : List Segment) : Prop := ∀ s ∈ ss, Unbraced ci s ∧ (s.kind = .regex → ci = false)

end Gofre.Spec
