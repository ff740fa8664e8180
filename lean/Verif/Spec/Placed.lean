import Verif.Spec.Url

/-! # The segments of a request path with their places -/

namespace Gofre.Spec

/-- The pieces of a text with the places where they begin, if the first one begins at `k`. -/
def placed : Nat → List Str → List (Nat × Str)
  | _, [] => []
  | k, v :: vs => (k, v) :: placed (k + v.length + 1) vs

/-- One more piece on top of the pieces so far (last one first): empty pieces are left out, `..` takes one back. -/
def pushAt (st : List (Nat × Str)) (p : Nat × Str) : List (Nat × Str) :=
  if p.2 = [] then st
  else if p.2 = b!".." then st.tail
  else p :: st

/-- The segments of a request path with their places in it. -/
def segmentsAt (path : Str) : List (Nat × Str) :=
  ((placed (((splitOn slash path).headD []).length + 1) (afterSlash path)).foldl pushAt []).reverse

end Gofre.Spec
