import Verif.Model.OAuth

/-! # Accounts at a sign-in provider -/

namespace Gofre.Spec
open Gofre.OAuth

/-- An account as its provider shows it to an application: the name the provider knows it by (`login` at GitHub, `id` at Google), the
address, if any, and whether the provider has verified that the address is theirs. -/
structure Account where
  key : Str
  email : Option Str
  verified : Bool := true
  name : Option Str := none

/-- The name of the platform. -/
def platformOf : Kind → Str
  | .github => b!"github"
  | .google => b!"google"

/-- A field holding a text, or anything but a text. -/
def Holds (body : Map Json) (field : Str) : Option Str → Prop
  | some v => Map.get? body field = some (.str v)
  | none => ∀ v, Map.get? body field ≠ some (.str v)

/-- The fields of the provider's answer. -/
structure Shows (k : Kind) (body : Map Json) (a : Account) : Prop where
  key : Holds body (match k with | .github => b!"login" | .google => b!"id") (some a.key)
  email : Holds body b!"email" a.email
  verified : k = .google → a.email ≠ none → Map.get? body b!"verified_email" = some (.bool a.verified)
  name : Holds body b!"name" a.name

/-- `u` is the user the application is told about when the account signs in. -/
def SignsIn (k : Kind) (a : Account) (u : User) : Prop :=
  ∃ status body, status / 100 = 2 ∧ Shows k body a ∧ fetchAuthenticatedUser k (.reply status body) = .ok u

end Gofre.Spec
