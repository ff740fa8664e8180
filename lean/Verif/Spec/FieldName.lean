import Verif.Model.Http
import Verif.All2

/-! # Names of header fields (RFC 9110, 5.1 and 5.6.2) -/

namespace Gofre.Spec

/-- Characters of a token. -/
def TokenByte (c : UInt8) : Prop :=
  (b!"0123456789abcdefghijklmnopqrstuvwxyzABCDEFGHIJKLMNOPQRSTUVWXYZ" ++ b!"!#$%&'*+-.^_`|~").contains c = true

/-- The same letter, in whatever case, or the same character. -/
def SameLetter (a b : UInt8) : Prop := a = b ∨ (65 ≤ a.toNat ∧ a.toNat ≤ 90 ∧ b.toNat = a.toNat + 32) ∨ (65 ≤ b.toNat ∧ b.toNat ≤ 90 ∧ a.toNat = b.toNat + 32)

/-- Two names of one field: tokens are compared without regard to case, anything else literally. -/
def SameField (a b : Str) : Prop := a = b ∨ ((∀ c ∈ a, TokenByte c) ∧ (∀ c ∈ b, TokenByte c) ∧ All2 SameLetter a b)

end Gofre.Spec
