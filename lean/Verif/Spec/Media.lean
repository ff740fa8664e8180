import Verif.Bytes

/-!
# The media type of a request body
-/

namespace Gofre.Spec

/-- The value of `Content-Type` up to its parameters. -/
def withoutParameters (v : Str) : Str := v.takeWhile (· ≠ 59)

/-- A `Content-Type` that says something: there is a visible character before the parameters. -/
def NamesType (v : Str) : Prop := ∃ b ∈ withoutParameters v, 33 ≤ b ∧ b ≤ 126

/-- A `Content-Type` that says nothing: no value, or only blanks before the parameters. -/
def NoType (v : Str) : Prop := ∀ b ∈ withoutParameters v, b = 32 ∨ b = 9

instance (v : Str) : Decidable (NamesType v) := by unfold NamesType; infer_instance
instance (v : Str) : Decidable (NoType v) := by unfold NoType; infer_instance

end Gofre.Spec
