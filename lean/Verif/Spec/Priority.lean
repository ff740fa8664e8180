import Verif.Model.Pattern

/-! # Specificity of patterns

A pattern is read as the list of the kinds of its segments, `**` as the run of segments it stands
for when the whole has 19 segments; a pattern without `**` ends earlier. -/

namespace Gofre.Spec
open Gofre.Path

/-- From the most to the least specific kind of segment. -/
def rank : MT → Nat
  | .unknown => 0
  | .literal => 1
  | .constraint => 2
  | .capture => 3
  | .regex => 4
  | .single => 5
  | .multiple => 6

/-- The kinds left to right, 1 = literal, …, 6 = `**`, 0 = nothing any more. -/
def spread (ks : List MT) : List Nat :=
  let l := ks.flatMap fun k => if k = .multiple then List.replicate (20 - ks.length) 6 else [rank k]
  l ++ List.replicate (19 - l.length) 0

/-- The kinds of a pattern with any number of `**`, the last of which stands for `n` segments. -/
def stretch (n : Nat) : List MT → List Nat
  | [] => []
  | k :: ks => if k = .multiple ∧ .multiple ∉ ks then List.replicate n 6 ++ ks.map rank else rank k :: stretch n ks

/-- The kinds left to right: of several `**` the last stands for as many segments as make the whole
19, the others for one. -/
def reach (ks : List MT) : List Nat :=
  let l := stretch (20 - ks.length) ks
  l ++ List.replicate (19 - l.length) 0

end Gofre.Spec
