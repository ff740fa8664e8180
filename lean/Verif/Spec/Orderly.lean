import Verif.Spec.Hidden
import Verif.Model.Router

/-! # Routes of a method, and when they are orderly for a request -/

namespace Gofre.Spec
open Gofre.Path

/-- The patterns of the routes for a method, with their handlers. -/
def patternsFor (x : Ext) (other : Str → Str) (ci : Bool) (es : List Route) (method : Str) : List Pattern :=
  (es.filter fun e => toUpper other e.method = toUpper other method).filterMap fun e =>
    match parsePattern x ci e.pat with
    | .ok p => some { p with attachment := e.handler }
    | _ => none

/-- The patterns are short and few, `**` only ends them, none has the texts on which sharing nodes goes wrong, and for the request `us` wildcards are compared exactly
and neither wildcards nor constraints of different patterns compete. -/
structure Orderly (x : Ext) (ci : Bool) (ps : List Pattern) (us : List Str) : Prop where
  plain : ∀ p ∈ ps, ∀ s ∈ p.segments, Plain ci s
  few : ps.length < 65536
  short : ∀ p ∈ ps, (pieces p.raw).length ≤ 19
  stars : ∀ p ∈ ps, StarsLast p.segments
  faithful : Faithful ci ps us
  settled : Settled x ci ps us
  unrivalled : Unrivalled x ci ps us

end Gofre.Spec
