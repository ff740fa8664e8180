import Verif.Spec.Orderly

/-! # Applications without constraints and wildcards -/

namespace Gofre.Spec
open Gofre.Path

/-- The routes consist of literals, variables without constraint, `*` and a `**` at most at the end; there are fewer than 65536 of them, of at most 19 pieces each.  If
letter case is ignored, the literals are ASCII. -/
structure SimpleRoutes (x : Ext) (ci : Bool) (es : List Route) : Prop where
  few : es.length < 65536
  short : ∀ e ∈ es, ∀ p, parsePattern x ci e.pat = .ok p → (pieces p.raw).length ≤ 19
  kinds : ∀ e ∈ es, ∀ p, parsePattern x ci e.pat = .ok p → ∀ s ∈ p.segments, s.kind ≠ .constraint ∧ s.kind ≠ .regex
  stars : ∀ e ∈ es, ∀ p, parsePattern x ci e.pat = .ok p → StarsLast p.segments
  ascii : ci = true → ∀ e ∈ es, ∀ p, parsePattern x ci e.pat = .ok p → ∀ s ∈ p.segments, s.kind = .literal → Ascii s.val

/-- The same segments up to the names of variables, for segments other than constraints and wildcards. -/
def SameButNames (ss ts : List Segment) : Prop :=
  (ss.map fun s => (s.kind, if s.kind = .literal then s.val else [])) = ts.map fun s => (s.kind, if s.kind = .literal then s.val else [])

/-- Every proper beginning of a route's pattern is itself registered for the method, or no route of the method has its kinds up to the last and there a less specific one. -/
def NoTraps (x : Ext) (other : Str → Str) (ci : Bool) (es : List Route) : Prop :=
  ∀ e ∈ es, ∀ p, parsePattern x ci e.pat = .ok p → ∀ k, 0 < k → k < p.segments.length →
    (∃ d ∈ es, toUpper other d.method = toUpper other e.method ∧ ∃ q, parsePattern x ci d.pat = .ok q ∧ SameButNames q.segments (p.segments.take k)) ∨
    ∀ d ∈ es, toUpper other d.method = toUpper other e.method → ∀ q, parsePattern x ci d.pat = .ok q →
      ¬ ∃ ks a b, kinds (p.segments.take k) = ks ++ [a] ∧ kinds q.segments = ks ++ [b] ∧ rank a < rank b

end Gofre.Spec
