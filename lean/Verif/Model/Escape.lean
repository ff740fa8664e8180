import Verif.Model.Query

/-!
# Escaped paths (Go's `net/url`)

The router is handed the decoded path `req.URL.Path` (`router/router.go:68`,
`router/path/matching_context.go:77`).  Escaping a segment and decoding the path of a request line
are written out here.
-/

namespace Gofre.Escape
open Gofre.OAuth (unreserved upperHex)

/-- Bytes `url.PathEscape` leaves alone (`shouldEscape` of `net/url` with `encodePathSegment`). -/
def pathSafe (c : UInt8) : Bool := unreserved c || c == 36 || c == 38 || c == 43 || c == 58 || c == 61 || c == 64

/-- `url.PathEscape`. -/
def pathEscape : Str → Str
  | [] => []
  | c :: l => if pathSafe c then c :: pathEscape l else 37 :: upperHex (c >>> 4) :: upperHex (c &&& 15) :: pathEscape l

/-- `ishex` and `unhex` of `net/url`. -/
def hexDigit (c : UInt8) : Option UInt8 :=
  if 48 ≤ c ∧ c ≤ 57 then some (c - 48)
  else if 97 ≤ c ∧ c ≤ 102 then some (c - 97 + 10)
  else if 65 ≤ c ∧ c ≤ 70 then some (c - 65 + 10)
  else none

/-- `unescape` of `net/url` with `encodePath`, which makes `URL.Path` of the escaped path: `none` is
the error on which the server answers 400 without calling the handler. -/
def pathUnescape : Str → Option Str
  | [] => some []
  | 37 :: a :: b :: l =>
    match hexDigit a, hexDigit b, pathUnescape l with
    | some h, some k, some r => some ((h <<< 4 ||| k) :: r)
    | _, _, _ => none
  | 37 :: _ => none
  | c :: l => (pathUnescape l).map (c :: ·)

end Gofre.Escape
