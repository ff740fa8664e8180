import Verif.Model.Context

/-! # What was put last -/

namespace Gofre.Spec
open Gofre.Context

/-- The element taken last from a list of things done, if any. -/
def lastOf {α β : Type} (f : α → Option β) (l : List α) : Option β := l.reverse.findSome? f

/-- The principal a middleware puts. -/
def putsPrincipal : Put → Option Principal
  | .supplied p => p
  | .fetched u => some (userPrincipal u)
  | _ => none

/-- The token. -/
def putsToken : Put → Option OAuth.AccessToken
  | .exchanged t => some t
  | _ => none

/-- The nonce. -/
def putsNonce : Put → Option Str
  | .issued s => some s
  | _ => none

/-- The value under the application's key `n` of type `type`. -/
def putsOwn (type n : Nat) : Put → Option Val
  | .own type' n' v => if type' = type ∧ n' = n then some v else none
  | _ => none

end Gofre.Spec
