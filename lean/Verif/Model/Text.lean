import Verif.Bytes

/-!
# Text helpers of the Go standard library used by the middlewares
-/

namespace Gofre

/-- UTF-8 encodings of the runes for which `unicode.IsSpace` holds. -/
def spaces : List Str :=
  [[9], [10], [11], [12], [13], [32], [0xc2, 0x85], [0xc2, 0xa0], [0xe1, 0x9a, 0x80],
   [0xe2, 0x80, 0x80], [0xe2, 0x80, 0x81], [0xe2, 0x80, 0x82], [0xe2, 0x80, 0x83], [0xe2, 0x80, 0x84],
   [0xe2, 0x80, 0x85], [0xe2, 0x80, 0x86], [0xe2, 0x80, 0x87], [0xe2, 0x80, 0x88], [0xe2, 0x80, 0x89],
   [0xe2, 0x80, 0x8a], [0xe2, 0x80, 0xa8], [0xe2, 0x80, 0xa9], [0xe2, 0x80, 0xaf], [0xe2, 0x81, 0x9f],
   [0xe3, 0x80, 0x80]]

/-- Remove one of the given texts from the front. -/
def stripOne (sps : List Str) (s : Str) : Option Str :=
  sps.findSome? fun sp => if sp.isPrefixOf s then some (s.drop sp.length) else none

/-- Remove them as long as possible (at most `n` times). -/
def stripAll (sps : List Str) : Nat → Str → Str
  | 0, s => s
  | n + 1, s => match stripOne sps s with
    | some s' => stripAll sps n s'
    | none => s

/-- `strings.TrimLeftFunc(s, unicode.IsSpace)`. -/
def trimLeft (s : Str) : Str := stripAll spaces s.length s

/-- `strings.TrimRightFunc(s, unicode.IsSpace)`. -/
def trimRight (s : Str) : Str := (stripAll (spaces.map List.reverse) s.length s.reverse).reverse

/-- `strings.TrimSpace`. -/
def trimSpace (s : Str) : Str := trimRight (trimLeft s)

/-- `strings.ToLower`.  `unicode.ToLower` turns two non-ASCII letters into ASCII ones: `İ` into `i` and the
Kelvin sign into `k`.  Simplified: other non-ASCII letters are left alone; the results are only compared
with ASCII constants. -/
def toLower : Str → Str
  | 0xc4 :: 0xb0 :: l => 105 :: toLower l
  | 0xe2 :: 0x84 :: 0xaa :: l => 107 :: toLower l
  | c :: l => lowerByte c :: toLower l
  | [] => []

/-- `strconv.Itoa` for any integer. -/
def itoaInt : Int → Str
  | .ofNat n => itoa n
  | .negSucc n => 45 :: itoa (n + 1)

end Gofre
