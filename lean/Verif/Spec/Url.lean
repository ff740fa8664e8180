import Verif.Bytes

/-! # Normalised request paths -/

namespace Gofre.Spec

/-- One more piece of the path on top of the pieces so far (last one first). -/
def push (st : List Str) (v : Str) : List Str :=
  if v = [] then st
  else if v = b!".." then st.tail
  else v :: st

/-- The pieces that remain, in order. -/
def normal (ps : List Str) : List Str := (ps.foldl push []).reverse

/-- The pieces after the first slash. -/
def afterSlash (path : Str) : List Str := (splitOn slash path).drop 1

/-- The segments of a request path. -/
def segmentsOf (path : Str) : List Str := normal (afterSlash path)

/-- At no point are there more than 19 pieces. -/
def Fits (path : Str) : Prop := ∀ pre, pre <+: afterSlash path → (normal pre).length ≤ 19

end Gofre.Spec
