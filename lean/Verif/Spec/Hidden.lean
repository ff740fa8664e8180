import Verif.Spec.Route

/-! # When the beginning of another pattern hides a pattern -/

namespace Gofre.Spec
open Gofre.Path

/-- The kinds of the segments of a pattern. -/
abbrev kinds (ss : List Segment) : List MT := ss.map (·.kind)

/-- The pattern `ss` is hidden from the request `us`: the beginning of a registered pattern
describes the whole request, no pattern of these kinds that describes it is registered, and the
beginning differs in kind from `ss` only in the last segment, where it is the more specific one. -/
def Hidden (x : Ext) (ci : Bool) (ps : List Pattern) (us : List Str) (ss : List Segment) : Prop :=
  ∃ q ∈ ps, ∃ k, 0 < k ∧ k < q.segments.length ∧ Describes x ci (q.segments.take k) us ∧
    (∀ p ∈ ps, Describes x ci p.segments us → kinds p.segments ≠ kinds (q.segments.take k)) ∧
    ∃ ks a b, kinds (q.segments.take k) = ks ++ [a] ∧ kinds ss = ks ++ [b] ∧ rank a < rank b

/-- Constrained variables of different registrations do not compete for the segments of the request. -/
def Unrivalled (x : Ext) (ci : Bool) (ps : List Pattern) (us : List Str) : Prop :=
  ps.Pairwise fun p q => ∀ s ∈ p.segments, ∀ t ∈ q.segments, s.kind = .constraint → t.kind = .constraint → ∀ u ∈ us, ¬ (Fit x ci s u ∧ Fit x ci t u)

end Gofre.Spec
