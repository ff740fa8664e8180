import Verif.Bytes

/-! # What a wildcard segment means for characters

The same as `Spec/Glob.lean`, for texts of Unicode characters instead of bytes. -/

namespace Gofre.Spec

/-- The UTF-8 text of some characters. -/
def enc (l : List Char) : Str := l.flatMap String.utf8EncodeChar

/-- `Wild same p u`: the characters `u` are described by the wildcard `p`, where `?` is any one
character, `*` any run of characters and any other character stands for itself up to `same`. -/
inductive Wild (same : Char → Char → Prop) : List Char → List Char → Prop
  | nil : Wild same [] []
  | any {p u c} : Wild same p u → Wild same ('?' :: p) (c :: u)
  | star {p u} (w : List Char) : Wild same p u → Wild same ('*' :: p) (w ++ u)
  | lit {p u pc uc} : pc ≠ '?' → pc ≠ '*' → same uc pc → Wild same p u → Wild same (pc :: p) (uc :: u)

/-- The character is one byte long. -/
def Short (c : Char) : Prop := c.toNat < 128

instance (c : Char) : Decidable (Short c) := inferInstanceAs (Decidable (_ < _))

/-- Two characters are the same, up to the case of an ASCII letter if `ci`. -/
def SameChar (ci : Bool) (a b : Char) : Prop := a = b ∨ (ci = true ∧ a.toLower = b.toLower)

end Gofre.Spec
