import Verif.Bytes

/-!
# How a form is written

Percent-encoding as RFC 3986 asks for: unreserved characters stand for themselves, hexadecimal digits are upper case; a space is a `+`, as in
forms.
-/

namespace Gofre.Spec

/-- The unreserved characters of RFC 3986, 2.3. -/
def unreservedChars : Str := b!"ABCDEFGHIJKLMNOPQRSTUVWXYZabcdefghijklmnopqrstuvwxyz0123456789-._~"

/-- A text in a form. -/
def formWrite (s : Str) : Str :=
  s.flatMap fun c =>
    if c ∈ unreservedChars then [c]
    else if c = 32 then b!"+"
    else [37, (b!"0123456789ABCDEF").getD (c.toNat / 16) 0, (b!"0123456789ABCDEF").getD (c.toNat % 16) 0]

/-- A pair in a form. -/
def pairWrite (kv : Str × Str) : Str := formWrite kv.1 ++ 61 :: formWrite kv.2

end Gofre.Spec
