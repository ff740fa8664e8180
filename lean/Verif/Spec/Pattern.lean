import Verif.Spec.Glob
import Verif.All2
import Verif.Model.Pattern

/-!
# What a path pattern spells

The grammar of a pattern, without reference to the parsing loops.
-/

namespace Gofre.Spec
open Gofre.Path (Segment MT)

/-- The pieces between slashes, one optional trailing slash ignored. -/
def pieces (pat : Str) : List Str :=
  let ps := splitOn slash pat.tail
  if ps.getLast? = some [] then ps.dropLast else ps

/-- `Piece ci v s`: the text `v` is well formed and spells the segment `s`. -/
inductive Piece (ci : Bool) : Str → Segment → Prop
  | single : Piece ci b!"*" { val := b!"*", kind := .single }
  | multiple : Piece ci b!"**" { val := b!"**", kind := .multiple }
  | constraint (name re : Str) : name ≠ [] → (58 : UInt8) ∉ name → re ≠ [] → re.getLast? ≠ some 58 →
      NoDoubleStar (123 :: name ++ 58 :: re ++ [125]) →
      Piece ci (123 :: name ++ 58 :: re ++ [125])
        { val := 123 :: name ++ 58 :: re ++ [125], kind := .constraint, varName := name,
          re := some (if ci then b!"(?i)" ++ re else re) }
  | capture (name : Str) : name ≠ [] → (58 : UInt8) ∉ name → NoDoubleStar (123 :: name ++ [125]) →
      Piece ci (123 :: name ++ [125]) { val := 123 :: name ++ [125], kind := .capture, varName := name }
  | regex (v : Str) : v.head? ≠ some 123 → v.getLast? ≠ some 125 → (42 ∈ v ∨ 63 ∈ v) → v ≠ b!"*" →
      NoDoubleStar v → Piece ci v { val := v, kind := .regex }
  | literal (v : Str) : v ≠ [] → v.head? ≠ some 123 → v.getLast? ≠ some 125 → (42 : UInt8) ∉ v →
      (63 : UInt8) ∉ v → Piece ci v { val := v, kind := .literal }

/-- The whole pattern text spells these segments. -/
structure Spells (compiles : Str → Bool) (ci : Bool) (pat : Str) (segs : List Segment) : Prop where
  slashed : ∃ body, pat = slash :: body ∧ body ≠ []
  spelled : All2 (Piece ci) (pieces pat) segs
  compile : ∀ s ∈ segs, ∀ src, s.re = some src → compiles src = true
  apart : ¬ ∃ a b, pieces pat = a ++ b!"**" :: b!"**" :: b

end Gofre.Spec
